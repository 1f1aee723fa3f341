import Verif.Proofs.LiteViews
import Verif.Props.AnyOrder
import Verif.Props.StoredText
import Verif.Props.ViewExports
/-
C79: one run brings the tables and the views of a SQLite database to those of the file.
-/
namespace Sqldef
open Spec Written Token Dumped

/-- **C79.** For a file with statements of tables and then of views, and a SQLite database whose tables and views with a name in the file are as
in the file, a run that ends without an error leaves exactly the tables and the views of the file behind: the missing ones are created and the
others are dropped. -/
theorem C79_tables_and_views_of_the_file_are_there (fmtFloat : Str → Str) {σ : Type} (db : Db σ) (master : σ → List Lite.Object)
    (hdb : LiteKeeps db master) (s : σ) (ts us : List Written.Table) (vs ws : List NewView) (hu : LiteHolds (master s) us ws)
    (hou : OrderlyTables .sqlite3 us) (hot : OrderlyTables .sqlite3 ts) (how : OrderlyViews ws) (hov : OrderlyViews vs)
    (hs : ∀ u ∈ us, ∀ t ∈ ts, u.name.name = t.name.name → u = t) (hs' : ∀ w ∈ ws, ∀ v ∈ vs, w.name.name = v.name.name → w = v)
    (hx : ∀ t ∈ ts ++ us, ∀ v ∈ vs ++ ws, t.name.name ≠ v.name.name)
    (hq : ∀ u ∈ us, u.name.name ≠ [] ∧ '`' ∉ u.name.name)
    (hn : ∀ t ∈ ts, t.ifNotExists = false ∧ t.name.schema = none ∧ ¬ Reserved t.name.name)
    (fs : Files) (o : Options) (he : o.export_ = false) (hdry : o.dryRun = false) (hskip : o.skipDrop = false) (file : Str)
    (hr : readFile fs o.sqlFile = .ok file)
    (hf : Consists .sqlite3 file (ts.map (fun t => .sentence (.table t)) ++ vs.map .view))
    (hc : ∀ x ∈ statementTexts file, NoComment x)
    (herr : (run (Sql.env fmtFloat) .sqlite3 (Lite.database db master) fs o s).err = none) :
    ∃ ts' vs', ts'.Perm ts ∧ vs'.Perm vs ∧
      LiteHolds (master (run (Sql.env fmtFloat) .sqlite3 (Lite.database db master) fs o s).state) ts' vs' :=
  lite_views_run fmtFloat hdb hu hou hot how hov hs hs' hx hq hn he hdry hskip hr
    (by unfold tablesAndViews; rw [List.map_map]; exact hf) hc herr

/-- **C79.** After such a run, the next run with the same statements, in whatever order and layout, finds nothing to do. -/
theorem C79_second_run_changes_nothing (fmtFloat : Str → Str) {σ : Type} (db : Db σ) (master : σ → List Lite.Object)
    (hdb : LiteKeeps db master) (s : σ) (ts us : List Written.Table) (vs ws : List NewView) (hu : LiteHolds (master s) us ws)
    (hou : OrderlyTables .sqlite3 us) (hot : OrderlyTables .sqlite3 ts) (how : OrderlyViews ws) (hov : OrderlyViews vs)
    (hs : ∀ u ∈ us, ∀ t ∈ ts, u.name.name = t.name.name → u = t) (hs' : ∀ w ∈ ws, ∀ v ∈ vs, w.name.name = v.name.name → w = v)
    (hx : ∀ t ∈ ts ++ us, ∀ v ∈ vs ++ ws, t.name.name ≠ v.name.name)
    (hq : ∀ u ∈ us, u.name.name ≠ [] ∧ '`' ∉ u.name.name)
    (hn : ∀ t ∈ ts, t.ifNotExists = false ∧ t.name.schema = none ∧ ¬ Reserved t.name.name)
    (fs : Files) (o : Options) (he : o.export_ = false) (hdry : o.dryRun = false) (hskip : o.skipDrop = false) (file : Str)
    (hr : readFile fs o.sqlFile = .ok file)
    (hf : Consists .sqlite3 file (ts.map (fun t => .sentence (.table t)) ++ vs.map .view))
    (hc : ∀ x ∈ statementTexts file, NoComment x) (s' : σ)
    (hrun : ∃ events, run (Sql.env fmtFloat) .sqlite3 (Lite.database db master) fs o s = { events, err := none, state := s' })
    (fs' : Files) (o' : Options) (he' : o'.export_ = false) (file' : Str) (hr' : readFile fs' o'.sqlFile = .ok file')
    (ss : List Written.Statement) (hp : ss.Perm (ts.map (fun t => .sentence (.table t)) ++ vs.map .view)) (hf' : Consists .sqlite3 file' ss) :
    run (Sql.env fmtFloat) .sqlite3 (Lite.database db master) fs' o' s' =
      { events := [.readFile, .print (lit "-- Nothing is modified --\n")], err := none, state := s' } := by
  obtain ⟨events, hrun⟩ := hrun
  obtain ⟨ts', vs', p1, p2, h⟩ := C79_tables_and_views_of_the_file_are_there fmtFloat db master hdb s ts us vs ws hu hou hot how hov hs hs' hx hq hn
    fs o he hdry hskip file hr hf hc (by rw [hrun])
  rw [hrun] at h
  refine C74_sqlite_statements_in_any_order fmtFloat db master s' ts' vs' (holds_says h fun v hm => hov.clear v (p2.mem_iff.mp hm))
    (orderly_perm hot p1) ?_ fs' o' he' file' hr' ss ?_ hf'
  · unfold ViewsDiffer
    refine (p2.map _).nodup_iff.mpr ?_
    rw [List.map_congr_left hov.small]
    exact hov.names
  · exact hp.trans ((p1.map _).append (p2.map _)).symm

/-- **C79.** What such a run does, statement by statement: the missing tables and then the missing views are created with the texts of the file,
then the tables and at last the views that the file does not mention are dropped. -/
theorem C79_only_the_difference (fmtFloat : Str → Str) (ts us : List Written.Table) (vs ws : List NewView) (file dump : Str)
    (hf : Consists .sqlite3 file (ts.map (fun t => .sentence (.table t)) ++ vs.map .view))
    (hd : Consists .sqlite3 dump (us.map (fun t => .sentence (.table t)) ++ ws.map .view))
    (ht : OrderlyTables .sqlite3 ts) (hu : OrderlyTables .sqlite3 us) (hv : OrderlyViews vs) (hw : OrderlyViews ws)
    (hs : ∀ u ∈ us, ∀ t ∈ ts, u.name.name = t.name.name → u = t) (hs' : ∀ w ∈ ws, ∀ v ∈ vs, w.name.name = v.name.name → w = v) :
    ∃ xs ys, statementTexts file = xs ++ ys ∧ xs.length = ts.length ∧ generateIdempotentDDLs (Sql.env fmtFloat) .sqlite3 file dump = .ok
      (((List.zip xs ts).filter fun p => p.2.name.name ∉ us.map (·.name.name)).map (·.1) ++
       ((List.zip ys vs).filter fun p => p.2.name.name ∉ ws.map (·.name.name)).map (·.1) ++
       ((us.filter fun u => u.name.name ∉ ts.map (·.name.name)).map (·.name.name)).map (fun n => lit "DROP TABLE `" ++ n ++ lit "`") ++
       ((ws.filter fun w => w.name.name ∉ vs.map (·.name.name)).map (·.name.name)).map (fun n => lit "DROP VIEW `" ++ n ++ lit "`")) := by
  have e : ∀ (ts : List Written.Table) (vs : List NewView), ts.map (fun t => Statement.sentence (.table t)) ++ vs.map .view = tablesAndViews ts vs := by
    intro ts vs
    unfold tablesAndViews
    rw [List.map_map]
    rfl
  rw [e] at hf hd
  exact generate_mixed fmtFloat hf hd ht hu hv hw hs hs'

/-! ### An example -/

/-- A small SQLite with tables and views: the rows of `sqlite_master` as they were when the transaction began, and as they are. -/
def exLiteKeeper : Db (List Lite.Object × List Lite.Object) where
  tableNames _ := .ok []
  dumpTableDDL _ _ := .ok []
  views _ := .ok []
  triggers _ := .ok []
  begin s := (none, (s.2, s.2))
  commit s := (none, s)
  rollback s := (none, (s.1, s.1))
  exec text s :=
    match tokenize .sqlite3 text with
    | .ok (a :: b :: c :: _) =>
      let kind := if b = kw "TABLE" then some (lit "table") else if b = kw "VIEW" then some (lit "view") else none
      match kind with
      | none => (some (txt "syntax error"), s)
      | some k =>
        if a = kw "CREATE" then
          if c.val ∈ s.2.map (·.tblName) then (some (txt "there is already another one"), s)
          else (none, (s.1, s.2 ++ [{ type := k, tblName := c.val, sql := some text }]))
        else if a = kw "DROP" then
          if ∃ o ∈ s.2, o.type = k ∧ o.tblName = c.val then (none, (s.1, s.2.filter fun o => o.tblName ≠ c.val))
          else (some (txt "no such thing"), s)
        else (some (txt "syntax error"), s)
    | _ => (some (txt "syntax error"), s)

theorem exLiteKeeper_drop (word : String) (hw : word = "TABLE" ∨ word = "VIEW") {n : Str} (h1 : n ≠ []) (h2 : '`' ∉ n) :
    tokenize .sqlite3 (lit "DROP " ++ lit word ++ lit " `" ++ n ++ lit "`") = .ok [kw "DROP", kw word, nm n] := by
  refine tokenize_layout ?_
  have hq : Layout .sqlite3 ('`' :: n ++ ['`']) [nm n] := by
    have := lay_spells (mode := .sqlite3) (t := nm n) (rest := []) (.quoted (o := '`') (c := '`') (by decide) h1 (by simp)) lay_end
    rw [doubled_id h2, List.append_nil] at this
    exact this
  rcases hw with rfl | rfl
  · have h3 := lay_kw (mode := .sqlite3) "TABLE" (by decide +kernel) (endsWord_space _) (lay_space hq)
    have h4 := lay_kw (mode := .sqlite3) "DROP" (by decide +kernel) (endsWord_space _) (lay_space h3)
    simpa [lit] using h4
  · have h3 := lay_kw (mode := .sqlite3) "VIEW" (by decide +kernel) (endsWord_space _) (lay_space hq)
    have h4 := lay_kw (mode := .sqlite3) "DROP" (by decide +kernel) (endsWord_space _) (lay_space h3)
    simpa [lit] using h4

theorem exLiteKeeper_keeps : LiteKeeps exLiteKeeper (·.2) where
  begins _ := rfl
  commits _ := rfl
  createsTable := by
    intro s text t ht hi hs he
    have hn : t.name.tokens = [nm t.name.name] := by
      unfold TableRef.tokens
      rw [hs]
      rfl
    obtain ⟨rest, hr⟩ : ∃ rest, Written.Table.tokens t = kw "CREATE" :: kw "TABLE" :: nm t.name.name :: rest := by
      simp only [Written.Table.tokens, hi, hn]
      exact ⟨_, rfl⟩
    have hv : (nm t.name.name).val = t.name.name := rfl
    simp only [exLiteKeeper, tokenize_layout ht.layout, hr, if_true, hv] at he ⊢
    split at he
    · cases he
    · rename_i hc
      rw [if_neg hc]
      exact ⟨text, [], rfl, hr ▸ ht, by simp⟩
  createsView := by
    intro s text v ht hi hs he
    have hn : v.name.tokens = [nm v.name.name] := by
      unfold TableRef.tokens
      rw [hs]
      rfl
    obtain ⟨rest, hr⟩ : ∃ rest, v.tokens = kw "CREATE" :: kw "VIEW" :: nm v.name.name :: rest := by
      simp only [NewView.tokens, hi, hn]
      exact ⟨_, rfl⟩
    have hv : (nm v.name.name).val = v.name.name := rfl
    have hne : kw "VIEW" ≠ kw "TABLE" := by decide +kernel
    simp only [exLiteKeeper, tokenize_layout ht.layout, hr, if_true, hv, hne, if_false] at he ⊢
    split at he
    · cases he
    · rename_i hc
      rw [if_neg hc]
      exact ⟨text, rfl, hr ▸ ht⟩
  dropsTable := by
    intro s n h1 h2 ho he
    have ht : tokenize .sqlite3 (lit "DROP TABLE `" ++ n ++ lit "`") = _ := exLiteKeeper_drop "TABLE" (.inl rfl) h1 h2
    have hne : kw "DROP" ≠ kw "CREATE" := by decide +kernel
    have hv : (nm n).val = n := rfl
    simp only [exLiteKeeper, ht, hne, if_false, if_true, hv]
    rw [if_pos ho]
  dropsView := by
    intro s n h1 h2 ho he
    have ht : tokenize .sqlite3 (lit "DROP VIEW `" ++ n ++ lit "`") = _ := exLiteKeeper_drop "VIEW" (.inr rfl) h1 h2
    have hne : kw "DROP" ≠ kw "CREATE" := by decide +kernel
    have hne' : kw "VIEW" ≠ kw "TABLE" := by decide +kernel
    have hv : (nm n).val = n := rfl
    simp only [exLiteKeeper, ht, hne, hne', if_false, if_true, hv]
    rw [if_pos ho]

/-- Two tables, one of them with an index, and two views. -/
def exKeptMaster : List Lite.Object :=
  [{ type := lit "table", tblName := lit "t", sql := some (txt "CREATE TABLE t (a integer)") },
   { type := lit "view", tblName := lit "v", sql := some (txt "CREATE VIEW v AS\nSELECT t.a x\n  FROM t") },
   { type := lit "table", tblName := lit "old", sql := some (txt "CREATE TABLE old (line integer)") },
   { type := lit "view", tblName := lit "gone", sql := some (txt "CREATE VIEW gone AS SELECT t.a x FROM t") },
   { type := lit "index", tblName := lit "old", sql := some (txt "CREATE INDEX by_line ON old (line)") }]

def exKeptOld : Written.Table := { name := { name := lit "old" }, first := { name := lit "line", type := .integer "integer" none false false } }

def exKeptGone : NewView := { exLiteView with name := { name := lit "gone" } }

def exKeptNew : NewView := { exLiteView with name := { name := lit "w" } }

theorem exKeptMaster_holds : LiteHolds exKeptMaster [exPlainTable, exKeptOld] [exLiteView, exKeptGone] where
  tables := by
    rw [show (exKeptMaster.filter fun o => o.type = lit "table" ∧ ¬ Reserved o.tblName) = [exKeptMaster[0], exKeptMaster[2]] from rfl]
    exact .cons ⟨rfl, _, rfl, layout_of_test [("", "CREATE"), (" ", "TABLE"), (" ", "t"), (" ", "("), ("", "a"), (" ", "integer"), ("", ")")] (by decide +kernel),
        by decide +kernel, by unfold NoComment; decide +kernel, by decide +kernel⟩
      (.cons ⟨rfl, _, rfl, layout_of_test [("", "CREATE"), (" ", "TABLE"), (" ", "old"), (" ", "("), ("", "line"), (" ", "integer"), ("", ")")] (by decide +kernel),
        by decide +kernel, by unfold NoComment; decide +kernel, by decide +kernel⟩ .nil)
  views := by
    rw [show (exKeptMaster.filter fun o => o.type = lit "view") = [exKeptMaster[1], exKeptMaster[3]] from rfl]
    exact .cons ⟨rfl, _, rfl, layout_of_test [("", "CREATE"), (" ", "VIEW"), (" ", "v"), (" ", "AS"), ("\n", "SELECT"), (" ", "t"), ("", "."), ("", "a"), (" ", "x"), ("\n  ", "FROM"), (" ", "t")] (by decide +kernel),
        by decide +kernel, by unfold NoComment; decide +kernel, by decide +kernel⟩
      (.cons ⟨rfl, _, rfl, layout_of_test [("", "CREATE"), (" ", "VIEW"), (" ", "gone"), (" ", "AS"), (" ", "SELECT"), (" ", "t"), ("", "."), ("", "a"), (" ", "x"), (" ", "FROM"), (" ", "t")] (by decide +kernel),
        by decide +kernel, by unfold NoComment; decide +kernel, by decide +kernel⟩ .nil)
  first := by
    intro o ho ht
    simp only [exKeptMaster, List.mem_cons, List.not_mem_nil, or_false] at ho
    rcases ho with rfl | rfl | rfl | rfl | rfl
    all_goals first | rfl | exact absurd ht (by decide)
  owned := by
    intro o ho ht
    simp only [exKeptMaster, List.mem_cons, List.not_mem_nil, or_false] at ho
    rcases ho with rfl | rfl | rfl | rfl | rfl
    all_goals first | exact absurd rfl ht | simp [exKeptMaster]
  apart := by
    intro o ho p hp h1 h2
    simp only [exKeptMaster, List.mem_cons, List.not_mem_nil, or_false] at ho hp
    rcases ho with rfl | rfl | rfl | rfl | rfl <;> rcases hp with rfl | rfl | rfl | rfl | rfl <;>
      first | rfl | exact absurd h1 (by decide) | exact absurd h2 (by decide)

theorem exKeptViews_orderly : OrderlyViews [exLiteView, exKeptGone] ∧ OrderlyViews [exLiteView, exKeptNew] := by
  constructor
  · exact ⟨by intro v hv; simp only [List.mem_cons, List.not_mem_nil, or_false] at hv; rcases hv with rfl | rfl <;> exact exLiteView_clear,
      by decide, by decide, by decide +kernel, by decide +kernel⟩
  · exact ⟨by intro v hv; simp only [List.mem_cons, List.not_mem_nil, or_false] at hv; rcases hv with rfl | rfl <;> exact exLiteView_clear,
      by decide, by decide, by decide +kernel, by decide +kernel⟩

theorem exKeptTables_orderly : OrderlyTables .sqlite3 [exPlainTable, exKeptOld] ∧ OrderlyTables .sqlite3 [exPlainTable, exSecondTable] := by
  constructor
  all_goals
    constructor
    · simp [exPlainTable, exKeptOld, exSecondTable, Sentence.Clear, Table.Clear, Col.Clear, Ty.Known, integerWords, clearOptions, Sentence.InRange, Sentence.indexColumns]
    · decide
    · intro t ht
      simp only [List.mem_cons, List.not_mem_nil, or_false] at ht
      rcases ht with rfl | rfl
      all_goals exact ⟨by decide +kernel, by decide +kernel, by decide +kernel, by decide +kernel, by decide +kernel, fun h => by cases h⟩

/-- A file with two tables and two views: one of each is there, the other is new. -/
def exKeptFile : Str := txt "create table t (a integer);
create table u (b integer);
create view v as select t.a x from t;
create view w as select t.a x from t;
"

theorem exKeptFile_consists : Consists .sqlite3 exKeptFile ([exPlainTable, exSecondTable].map (fun t => .sentence (.table t)) ++ [exLiteView, exKeptNew].map .view) ∧
    ∀ x ∈ statementTexts exKeptFile, NoComment x := by
  have e : statementTexts exKeptFile = [txt "create table t (a integer)", txt "create table u (b integer)", txt "create view v as select t.a x from t",
      txt "create view w as select t.a x from t"] := by decide +kernel
  unfold Consists NoComment
  rw [e]
  refine ⟨.cons ?_ (.cons ?_ (.cons ?_ (.cons ?_ .nil))), by decide +kernel⟩
  · exact layout_of_test [("", "create"), (" ", "table"), (" ", "t"), (" ", "("), ("", "a"), (" ", "integer"), ("", ")")] (by decide +kernel)
  · exact layout_of_test [("", "create"), (" ", "table"), (" ", "u"), (" ", "("), ("", "b"), (" ", "integer"), ("", ")")] (by decide +kernel)
  · exact layout_of_test [("", "create"), (" ", "view"), (" ", "v"), (" ", "as"), (" ", "select"), (" ", "t"), ("", "."), ("", "a"), (" ", "x"), (" ", "from"), (" ", "t")] (by decide +kernel)
  · exact layout_of_test [("", "create"), (" ", "view"), (" ", "w"), (" ", "as"), (" ", "select"), (" ", "t"), ("", "."), ("", "a"), (" ", "x"), (" ", "from"), (" ", "t")] (by decide +kernel)

def exKeptFiles : Files where
  read _ := .error (txt "no such file")
  stdinIsTerminal := false
  stdin := .ok exKeptFile

/-- What the run does. -/
theorem exKept_first_run : run (Sql.env id) .sqlite3 (Lite.database exLiteKeeper (·.2)) exKeptFiles exLiteOptions (exKeptMaster, exKeptMaster) =
    { events := [.readFile, .begin none, .print (txt "-- Apply --\n"),
        .print (txt "create table u (b integer);\n"), .exec (txt "create table u (b integer)") none,
        .print (txt "create view w as select t.a x from t;\n"), .exec (txt "create view w as select t.a x from t") none,
        .print (txt "DROP TABLE `old`;\n"), .exec (txt "DROP TABLE `old`") none,
        .print (txt "DROP VIEW `gone`;\n"), .exec (txt "DROP VIEW `gone`") none, .commit none]
      err := none
      state := (exKeptMaster, exKeptMaster.take 2 ++ [{ type := lit "table", tblName := lit "u", sql := some (txt "create table u (b integer)") },
        { type := lit "view", tblName := lit "w", sql := some (txt "create view w as select t.a x from t") }]) } :=
  outcome_of_check (by decide +kernel)

/-- The hypotheses of C79 are met: the second run finds nothing to do. -/
example : run (Sql.env id) .sqlite3 (Lite.database exLiteKeeper (·.2)) exKeptFiles exLiteOptions
      (run (Sql.env id) .sqlite3 (Lite.database exLiteKeeper (·.2)) exKeptFiles exLiteOptions (exKeptMaster, exKeptMaster)).state =
    { events := [.readFile, .print (lit "-- Nothing is modified --\n")], err := none,
      state := (run (Sql.env id) .sqlite3 (Lite.database exLiteKeeper (·.2)) exKeptFiles exLiteOptions (exKeptMaster, exKeptMaster)).state } := by
  refine C79_second_run_changes_nothing id exLiteKeeper (·.2) exLiteKeeper_keeps (exKeptMaster, exKeptMaster) [exPlainTable, exSecondTable]
    [exPlainTable, exKeptOld] [exLiteView, exKeptNew] [exLiteView, exKeptGone] exKeptMaster_holds exKeptTables_orderly.1 exKeptTables_orderly.2
    exKeptViews_orderly.1 exKeptViews_orderly.2 ?_ ?_ (by decide) (by decide) (by decide)
    exKeptFiles exLiteOptions rfl rfl rfl exKeptFile rfl exKeptFile_consists.1 exKeptFile_consists.2 _
    ⟨_, by rw [exKept_first_run]⟩ exKeptFiles exLiteOptions rfl exKeptFile rfl _ (.refl _) exKeptFile_consists.1
  · intro u hu t ht e
    simp only [List.mem_cons, List.not_mem_nil, or_false] at hu ht
    rcases hu with rfl | rfl <;> rcases ht with rfl | rfl <;> first | rfl | exact absurd e (by decide)
  · intro u hu t ht e
    simp only [List.mem_cons, List.not_mem_nil, or_false] at hu ht
    rcases hu with rfl | rfl <;> rcases ht with rfl | rfl <;> first | rfl | exact absurd e (by decide)

end Sqldef
