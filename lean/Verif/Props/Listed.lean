import Verif.Proofs.ListedText
import Verif.Props.AnyOrder
import Verif.Props.PgViews
import Verif.Props.ReorderAny
/-
C75: whatever is to be changed, the order in which the database lists what it has decides the order of removals only.
-/
namespace Sqldef
open Spec Written Dumped Spec.PgServer Pg

/-- **C75.** If the tables of the database, and the indexes, foreign keys, policies, views and triggers, are listed in another
order, the script is the same up to its end, where what is not wanted any more is removed: these statements may come in another
order. -/
theorem C75_order_of_the_database (mode : Mode) (desired current current' : List DDL) (hd : UniqueTables desired) (hn : NamesDiffer current)
    (h : ListedAgain current current') (hw : WellFormedCurrent current') (script : List Stmt) (hs : diff mode desired current = .ok script) :
    ∃ same rest rest', script = same ++ rest ∧ diff mode desired current' = .ok (same ++ rest') ∧ rest.Perm rest' ∧ ∀ s ∈ rest, TakesAway s :=
  diff_current_listed hd hn h hw hs

/-- **C75.** The same for descriptions of the database as text, in any order and layout. -/
theorem C75_description_in_any_order (fmtFloat : Str → Str) (mode : Mode) (desired current current' : Str) (hr : Reordered mode current current')
    (des cur cur' : List DDL) (hd : parseDDLs (Sql.env fmtFloat) mode desired = .ok des) (hu : UniqueTables des)
    (hc : parseDDLs (Sql.env fmtFloat) mode current = .ok cur) (hn : NamesDiffer cur)
    (hc' : parseDDLs (Sql.env fmtFloat) mode current' = .ok cur') (hw : WellFormedCurrent cur') (script : List Str)
    (h : generateIdempotentDDLs (Sql.env fmtFloat) mode desired current = .ok script) :
    ∃ script', generateIdempotentDDLs (Sql.env fmtFloat) mode desired current' = .ok script' ∧ SameButRemovals mode script script' :=
  scripts_alike fmtFloat hr (fun _ e => by cases hd.symm.trans e; exact hu) (fun _ e => by cases hc.symm.trans e; exact hn)
    (fun _ e => by cases hc'.symm.trans e; exact hw) h

/-- **C75.** Two answers of a Postgres server lead to the same script but for the order of the removals, whatever the order
of the rows and whatever is desired. -/
theorem C75_postgres_answers (fmtFloat : Str → Str) {σ τ : Type} (db : Db σ) (db' : Db τ) (server : List Relation)
    (cat : σ → Pg.Catalog) (cat' : τ → Pg.Catalog) (s : σ) (s' : τ) (hs : Sound server) (ha : AnswersAll server (cat s))
    (ha' : AnswersAll server (cat' s')) (hv : ViewsApart server) (own : Str × Str → Described) (hd : ServerSays server own)
    (vs : List NewView) (hvs : ViewsSay server vs) (hdf : ViewsDiffer vs) :
    ∃ text text', dumpDDLs (Pg.database db cat) s = .ok text ∧ dumpDDLs (Pg.database db' cat') s' = .ok text' ∧
      ∀ (desired : Str) (des : List DDL) (script : List Str), parseDDLs (Sql.env fmtFloat) .postgres desired = .ok des → UniqueTables des →
        generateIdempotentDDLs (Sql.env fmtFloat) .postgres desired text = .ok script →
        ∃ script', generateIdempotentDDLs (Sql.env fmtFloat) .postgres desired text' = .ok script' ∧ SameButRemovals .postgres script script' := by
  obtain ⟨ss, text, h1, -, h3, h4, -, -, h6⟩ := server_everything fmtFloat db cat s hs ha hv hd hvs hdf
  obtain ⟨ss', text', k1, -, k3, k4, -, -, k6⟩ := server_everything fmtFloat db' cat' s' hs ha' hv hd hvs hdf
  refine ⟨text, text', h3, k3, fun desired des script p1 p2 p3 => ?_⟩
  refine scripts_alike fmtFloat (reordered_of_consists h4 k4 (h1.trans k1.symm)) (fun _ e => by cases p1.symm.trans e; exact p2)
    (fun c hc => namesDiffer_of_normal (h6 _ _ h4 hc)) (fun c hc => ?_) p3
  have hn := k6 _ _ k4 hc
  exact wellFormedCurrent_of_wellFormed hn.wellFormed hn.noAddIndex

/-- **C75.** Two MySQL servers with the same tables, views and triggers, listed in whatever order. -/
theorem C75_mysql_servers (fmtFloat : Str → Str) {σ τ : Type} (db : Db σ) (db' : Db τ) (cat : σ → My.Catalog)
    (cat' : τ → My.Catalog) (s : σ) (s' : τ) (hl : MyListsTheSame (cat s) (cat' s')) (ts : List Written.Table) (vs : List NewView)
    (gs : List NewTrigger) (h : MyDatabaseSaysAll (cat s) ts vs gs) (ho : OrderlyTables .mysql ts) (hd : ViewsDiffer vs) (hg : TriggersDiffer gs) :
    ∃ text text', dumpDDLs (My.database db cat) s = .ok text ∧ dumpDDLs (My.database db' cat') s' = .ok text' ∧
      ∀ (desired : Str) (des : List DDL) (script : List Str), parseDDLs (Sql.env fmtFloat) .mysql desired = .ok des → UniqueTables des →
        generateIdempotentDDLs (Sql.env fmtFloat) .mysql desired text = .ok script →
        ∃ script', generateIdempotentDDLs (Sql.env fmtFloat) .mysql desired text' = .ok script' ∧ SameButRemovals .mysql script script' := by
  obtain ⟨text, h1, h2, -, -⟩ := my_everything db cat s h
  obtain ⟨ts', vs', gs', p1, p2, p3, h'⟩ := my_lists hl h
  obtain ⟨text', k1, k2, -, -⟩ := my_everything db' cat' s' h'
  refine ⟨text, text', h1, k1, fun desired des script q1 q2 q3 => ?_⟩
  exact servers_alike fmtFloat h2 k2 (everything_turned p1 p2 p3).symm
    (everything_clear (orderly_clear ho) (myViews_clear h.rest.views) (myTriggers_clear h.triggers))
    (fun _ hx => everything_normal hx (fun _ hx => tables_normal (by decide) ho hx) hd hg)
    (fun _ hx => wellFormed_free (everything_free ts' vs' gs') hx) (fun _ e => by cases q1.symm.trans e; exact q2) q3

/-- **C75.** Two SQLite databases with the same rows in their catalog, in whatever order. -/
theorem C75_sqlite_databases (fmtFloat : Str → Str) {σ τ : Type} (db : Db σ) (db' : Db τ)
    (master : σ → List Lite.Object) (master' : τ → List Lite.Object) (s : σ) (s' : τ) (hl : LiteListsTheSame (master s) (master' s'))
    (ts : List Written.Table) (vs : List NewView) (h : LiteDatabaseSays (master s) ts vs) (ho : OrderlyTables .sqlite3 ts) (hd : ViewsDiffer vs) :
    ∃ text text', dumpDDLs (Lite.database db master) s = .ok text ∧ dumpDDLs (Lite.database db' master') s' = .ok text' ∧
      ∀ (desired : Str) (des : List DDL) (script : List Str), parseDDLs (Sql.env fmtFloat) .sqlite3 desired = .ok des → UniqueTables des →
        generateIdempotentDDLs (Sql.env fmtFloat) .sqlite3 desired text = .ok script →
        ∃ script', generateIdempotentDDLs (Sql.env fmtFloat) .sqlite3 desired text' = .ok script' ∧ SameButRemovals .sqlite3 script script' := by
  obtain ⟨texts, h1, h2⟩ := lite_all db master s h
  obtain ⟨ts', vs', p1, p2, h'⟩ := lite_lists hl h
  obtain ⟨texts', k1, k2⟩ := lite_all db' master' s' h'
  refine ⟨_, _, h1, k1, fun desired des script q1 q2 q3 => ?_⟩
  refine servers_alike fmtFloat (consists_joined h2).1 (consists_joined k2).1 ?_ (mixed_clear (orderly_clear ho) (liteViews_clear h.views))
    (fun _ hx => mixed_normal hx (fun _ hx => tables_normal (by decide) ho hx) hd)
    (fun _ hx => wellFormed_free (fun x hm => everything_free ts' vs' [] x (by simpa [everything, tablesAndViews] using hm)) hx)
    (fun _ e => by cases q1.symm.trans e; exact q2) q3
  unfold tablesAndViews
  exact (((p1.map _).map _).append (p2.map _)).symm

/-! ### Examples -/

def exListedT : Table :=
  { name := lit "t", columns := [{ name := lit "a", position := 0, typeName := lit "int" }],
    indexes := [{ name := lit "i", indexType := lit "index", columns := [{ column := lit "a" }] },
                { name := lit "j", indexType := lit "index", columns := [{ column := lit "a" }] }] }

def exListedU : Table := { name := lit "u", columns := [{ name := lit "b", position := 0, typeName := lit "int" }] }

/-- A database with two tables and a view. -/
def exListed : List DDL := [.createTable (lit "t") exListedT, .createTable (lit "u") exListedU, .view { statement := lit "v", name := lit "v", definition := lit "select 1" }]

/-- The same database, listed in another order. -/
def exListedAgain : List DDL :=
  [.view { statement := lit "v", name := lit "v", definition := lit "select 1" }, .createTable (lit "u") exListedU,
   .createTable (lit "t") { exListedT with indexes := exListedT.indexes.reverse }]

/-- The table `t` gets another column; nothing else is wanted. -/
def exListedDesired : List DDL :=
  [.createTable (lit "n") { exListedT with columns := exListedT.columns ++ [{ name := lit "c", position := 1, typeName := lit "int" }], indexes := [] }]

theorem exListed_again : ListedAgain exListed exListedAgain :=
  ⟨_, .cons (.table (lit "t") (u := { exListedT with indexes := exListedT.indexes.reverse })
      ⟨rfl, rfl, (List.reverse_perm _).symm, .refl _, .refl _, by decide +kernel⟩) (.cons (.same _) (.cons (.same _) .nil)), by
    unfold exListedAgain
    exact ((List.Perm.swap _ _ _).trans ((List.Perm.swap _ _ _).cons _)).trans (List.Perm.swap _ _ _)⟩

theorem exListed_differ : NamesDiffer exListed where
  tables := by decide +kernel
  parts := by
    intro t ht
    have : t = exListedT ∨ t = exListedU := by
      have h : t ∈ [exListedT, exListedU] := by rw [show tablesOf exListed = [exListedT, exListedU] by decide +kernel] at ht; exact ht
      simpa using h
    rcases this with rfl | rfl <;> exact ⟨by decide +kernel, by decide +kernel, by decide +kernel⟩
  secondary := by intro n i hi; simp [exListed, indexesFor] at hi
  views := by decide +kernel
  triggers := by decide +kernel

theorem exListedAgain_wellFormed : WellFormedCurrent exListedAgain := by
  have e : ∀ a b c : DDL, [a, b, c] = [] ++ [a] ++ [b] ++ [c] := fun _ _ _ => rfl
  rw [exListedAgain, e, wellFormedCurrent_snoc, wellFormedCurrent_snoc, wellFormedCurrent_snoc]
  refine ⟨⟨⟨fun a x b e => by simp at e, ?_⟩, ?_⟩, ?_⟩ <;> simp [FollowsCurrent]

theorem exListed_script : diff .mysql exListedDesired exListed =
    .ok [.addColumn (lit "t") { name := lit "c", position := 1, typeName := lit "int" } (.after (lit "a")), .dropIndex (lit "t") (lit "i"),
      .dropIndex (lit "t") (lit "j"), .dropTable (lit "u"), .dropView (lit "v")] := by
  decide +kernel

/-- The column is added first, and what follows are the same removals in another order. -/
example : ∃ same rest rest', diff .mysql exListedDesired exListedAgain = .ok (same ++ rest') ∧ List.Perm rest rest' ∧
    [Stmt.addColumn (lit "t") { name := lit "c", position := 1, typeName := lit "int" } (.after (lit "a")), .dropIndex (lit "t") (lit "i"),
      .dropIndex (lit "t") (lit "j"), .dropTable (lit "u"), .dropView (lit "v")] = same ++ rest := by
  obtain ⟨same, rest, rest', h1, h2, h3, -⟩ := C75_order_of_the_database .mysql exListedDesired exListed exListedAgain (by decide +kernel)
    exListed_differ exListed_again exListedAgain_wellFormed _ exListed_script
  exact ⟨same, rest, rest', h2, h3, h1⟩

/-- The order of the removals is indeed another one. -/
example : diff .mysql exListedDesired exListedAgain =
    .ok [.addColumn (lit "t") { name := lit "c", position := 1, typeName := lit "int" } (.after (lit "a")), .dropTable (lit "u"),
      .dropIndex (lit "t") (lit "j"), .dropIndex (lit "t") (lit "i"), .dropView (lit "v")] := by
  decide +kernel

/-- A description in another order and layout: a table, a view and a trigger, all of which go if nothing is wanted. -/
example (script : List Str) (h : generateIdempotentDDLs (Sql.env id) .mysql [] exAny = .ok script) :
    ∃ script', generateIdempotentDDLs (Sql.env id) .mysql [] exTurned = .ok script' ∧ SameButRemovals .mysql script script' :=
  C75_description_in_any_order id .mysql [] exAny exTurned exTurned_reordered [] exAnyDefs exTurnedDefs rfl (by decide +kernel) exAny_parsed
    (namesDiffer_of_normal exAny_normal) exTurned_parsed exTurned_wellFormed script h

/-- A Postgres server with tables and views, which answers twice. -/
example (cat cat' : Pg.Catalog) (h : AnswersAll exViewServer cat) (h' : AnswersAll exViewServer cat') :
    ∃ text text', dumpDDLs (Pg.database exServer fun _ => cat) () = .ok text ∧ dumpDDLs (Pg.database exServer fun _ => cat') () = .ok text' ∧
      ∀ (desired : Str) (des : List DDL) (script : List Str), parseDDLs (Sql.env id) .postgres desired = .ok des → UniqueTables des →
        generateIdempotentDDLs (Sql.env id) .postgres desired text = .ok script →
        ∃ script', generateIdempotentDDLs (Sql.env id) .postgres desired text' = .ok script' ∧ SameButRemovals .postgres script script' :=
  C75_postgres_answers id exServer exServer exViewServer _ _ () () exViewServer_sound h h' exViewServer_apart exOwn exViewServer_describes
    [exPgView, exRecentView] exViewServer_views (by unfold ViewsDiffer; decide)

/-- The tables of a MySQL server in the opposite order. -/
example : ∃ text text', dumpDDLs (My.database exServer fun _ => exTwoTables) () = .ok text ∧
    dumpDDLs (My.database exServer fun _ => { exTwoTables with tables := [lit "u", lit "t"] }) () = .ok text' ∧
      ∀ (desired : Str) (des : List DDL) (script : List Str), parseDDLs (Sql.env id) .mysql desired = .ok des → UniqueTables des →
        generateIdempotentDDLs (Sql.env id) .mysql desired text = .ok script →
        ∃ script', generateIdempotentDDLs (Sql.env id) .mysql desired text' = .ok script' ∧ SameButRemovals .mysql script script' :=
  C75_mysql_servers id exServer exServer _ (fun _ => { exTwoTables with tables := [lit "u", lit "t"] }) () ()
    ⟨.swap _ _ _, fun _ _ => rfl, .refl _, .refl _⟩ _ _ _ exTwoTables_says exTwoTables_orderly (by unfold ViewsDiffer; decide)
    (by unfold TriggersDiffer; decide)

/-- The rows of a SQLite database in the opposite order. -/
example : ∃ text text', dumpDDLs (Lite.database exServer fun _ => exLiteViews) () = .ok text ∧
    dumpDDLs (Lite.database exServer fun _ => exLiteViews.reverse) () = .ok text' ∧
      ∀ (desired : Str) (des : List DDL) (script : List Str), parseDDLs (Sql.env id) .sqlite3 desired = .ok des → UniqueTables des →
        generateIdempotentDDLs (Sql.env id) .sqlite3 desired text = .ok script →
        ∃ script', generateIdempotentDDLs (Sql.env id) .sqlite3 desired text' = .ok script' ∧ SameButRemovals .sqlite3 script script' := by
  refine C75_sqlite_databases id exServer exServer _ (fun _ => exLiteViews.reverse) () () ⟨(List.reverse_perm _).symm, ?_⟩ _ _
    exLiteViews_says (exPlainTable_orderly _ (.inr rfl)) (by unfold ViewsDiffer; decide)
  intro o ho ht
  simp only [exLiteViews, List.reverse_cons, List.reverse_nil, List.nil_append, List.cons_append, List.mem_cons, List.not_mem_nil, or_false] at ho
  rcases ho with rfl | rfl
  · exact absurd ht (by decide)
  · rfl

end Sqldef
