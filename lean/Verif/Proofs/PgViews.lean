import Verif.Spec.PgViews
import Verif.Proofs.PgServer
import Verif.Proofs.ViewDump
import Verif.Props.ReorderAny
/-
The views of a Postgres server, and runs against a server with views that answers in any order.
-/
namespace Sqldef
open Spec Written Dumped Spec.PgServer Pg

theorem viewsQuery_eq (db : List Relation) : viewsQuery db =
    (db.filter fun r => ShownView r).flatMap fun c => (db.filter fun v => v.kind = 'v' ∧ c.name = v.name).map fun v => (c.schema, c.name, v.definition) := by
  unfold viewsQuery
  congr 1
  refine List.filter_congr fun c _ => decide_eq_decide.mpr ?_
  unfold ShownView
  simp only [List.mem_cons, List.not_mem_nil, or_false, not_or, ne_eq, not_and_or]
  tauto

/-- If the names of the views are different, then each is listed once. -/
theorem viewsQuery_own {db : List Relation} (hs : Sound db) (ha : ViewsApart db) : viewsQuery db = ownViews db := by
  rw [viewsQuery_eq, ownViews, List.map_eq_flatMap]
  refine List.flatMap_congr fun c hc => ?_
  obtain ⟨hc, hv⟩ := List.mem_filter.mp hc
  have hv := of_decide_eq_true hv
  have : (db.filter fun v => v.kind = 'v' ∧ c.name = v.name) = [c] := by
    rw [← relation_filter hs hc]
    refine List.filter_congr fun b hb => decide_eq_decide.mpr ⟨fun h => ⟨ha c hc hv b hb h.1 h.2.symm, h.2.symm⟩, fun h => ?_⟩
    have : b = c := List.inj_on_of_nodup_map hs.relations hb hc (Prod.ext h.1 h.2)
    rw [this]
    exact ⟨hv.1, rfl⟩
  rw [this]
  rfl

theorem reordered_of_consists {mode : Mode} {file file' : Str} {ss ss' : List Written.Statement} (hf : Consists mode file ss)
    (hf' : Consists mode file' ss') (hp : ss.Perm ss') : Reordered mode file file' := by
  unfold Consists at hf hf'
  obtain ⟨ts, h1, h2⟩ := List.perm_comp_forall₂ hp (List.Forall₂.flip hf')
  refine ⟨ts, ?_, h2⟩
  replace h1 := List.Forall₂.flip h1
  clear h2 hf' hp
  generalize statementTexts file = l at hf
  induction hf generalizing ts with
  | nil => cases h1; exact .nil
  | cons ha _ ih =>
    cases h1 with
    | cons hb hr => exact .cons ⟨_, ha, hb⟩ (ih _ hr)

/-- What the tables and the views of the server stand for. -/
def serverStatements (db : List Relation) (own : Str × Str → Described) (vs : List NewView) : List Written.Statement :=
  ((tablesQuery db).flatMap fun t => (own t).sentences).map .sentence ++ vs.map .view

/-- What one answer stands for. -/
theorem server_everything (fmtFloat : Str → Str) {σ : Type} (db : Db σ) (cat : σ → Pg.Catalog) (s : σ) {server : List Relation}
    (hs : Sound server) (ha : AnswersAll server (cat s)) (hv : ViewsApart server) {own : Str × Str → Described} (hd : ServerSays server own)
    {vs : List NewView} (hvs : ViewsSay server vs) (hdf : ViewsDiffer vs) :
    ∃ ss text, ss.Perm (serverStatements server own vs) ∧ (∀ x ∈ ss, x.Clear) ∧ dumpDDLs (Pg.database db cat) s = .ok text ∧
      Consists .postgres text ss ∧ Consists .postgres (text ++ lit ";\n") ss ∧ (text = [] → ss = []) ∧
      ∀ file ds, Consists .postgres file ss → parseDDLs (Sql.env fmtFloat) .postgres file = .ok ds → Normal .postgres ds := by
  obtain ⟨ds, h1, h2⟩ := described_tables ha.toAnswers hs hd
  have h1' := forall₂_imp (fun _ _ hx => And.left hx) h1
  have hp : (cat s).views.Perm (ownViews server) := by
    rw [← viewsQuery_own hs hv]
    exact ha.views
  obtain ⟨ws, h3, h4⟩ := List.perm_comp_forall₂ hp hvs
  have hdf' : ViewsDiffer ws := (h4.map _).nodup_iff.mpr hdf
  obtain ⟨text, t1, t2, t3, t4⟩ := pg_all db cat s h1' h3
  have hc := mixed_clear (all_clear h1') (pgViews_clear h3)
  refine ⟨_, text, ?_, hc, t1, t2, t3, t4, ?_⟩
  · exact (((same_sentences h2).trans (ha.tables.flatMap_right _)).map _).append (h4.map _)
  · intro file ds hf hds
    obtain ⟨ds', g1, g2, -⟩ := C67_file_is_understood fmtFloat .postgres file _ hf hc
    cases hds.symm.trans g1
    exact mixed_normal g2 (fun _ hx => described_normal (answers_tables ha.toAnswers hs).1 h1 hx) hdf'

theorem server_views_same (fmtFloat : Str → Str) {σ : Type} (db : Db σ) (cat : σ → Pg.Catalog) (s : σ) {server : List Relation}
    (hs : Sound server) (ha : AnswersAll server (cat s)) (hv : ViewsApart server) {own : Str × Str → Described} (hd : ServerSays server own)
    {vs : List NewView} (hvs : ViewsSay server vs) (hdf : ViewsDiffer vs) {o : Options} {fs : Files} (he : o.export_ = false) {file : Str}
    (hr : readFile fs o.sqlFile = .ok file) {ss : List Written.Statement} (hp : ss.Perm (serverStatements server own vs))
    (hf : Consists .postgres file ss) {defs : List DDL} (hdefs : parseDDLs (Sql.env fmtFloat) .postgres file = .ok defs)
    (hw : WellFormedCurrent defs) :
    run (Sql.env fmtFloat) .postgres (Pg.database db cat) fs o s =
      { events := [.readFile, .print (lit "-- Nothing is modified --\n")], err := none, state := s } := by
  obtain ⟨ss0, text, h1, h2, h3, h4, -, -, h5⟩ := server_everything fmtFloat db cat s hs ha hv hd hvs hdf
  obtain ⟨ds0, g1, -, -⟩ := C67_file_is_understood fmtFloat .postgres text _ h4 h2
  obtain ⟨ds', k1, k2⟩ := C62_any_statements_in_any_order fmtFloat .postgres text file (reordered_of_consists h4 hf (h1.trans hp.symm)) ds0 g1 (h5 _ _ h4 g1)
  cases hdefs.symm.trans k1
  simp only [run, h3, he, hr, (k2 hw).2]
  rfl

end Sqldef
