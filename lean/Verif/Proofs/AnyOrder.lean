import Verif.Spec.AnyOrder
import Verif.Proofs.PgViews
import Verif.Props.Triggers
import Verif.Proofs.LiteRun
/-
Runs against servers that list tables, views and triggers in any order.
-/
namespace Sqldef
open Spec Written Dumped

/-- A run on a database that is described by the statements of the file, in another order. -/
theorem run_reordered (fmtFloat : Str → Str) {mode : Mode} {σ : Type} {db : Db σ} {s : σ} {text : Str} {ss ss' : List Written.Statement}
    (h1 : dumpDDLs db s = .ok text) (h2 : Consists mode text ss) (hc : ∀ x ∈ ss, x.Clear)
    (hn : ∀ ds, List.Forall₂ (fun s d => Statement.DefinedAs mode s d) ss ds → Normal mode ds)
    {fs : Files} {o : Options} (he : o.export_ = false) {file : Str} (hr : readFile fs o.sqlFile = .ok file)
    (hf : Consists mode file ss') (hp : ss'.Perm ss)
    (hw : ∀ ds, List.Forall₂ (fun s d => Statement.DefinedAs mode s d) ss' ds → WellFormedCurrent ds) :
    run (Sql.env fmtFloat) mode db fs o s =
      { events := [.readFile, .print (lit "-- Nothing is modified --\n")], err := none, state := s } := by
  obtain ⟨ds, g1, g2, -⟩ := C67_file_is_understood fmtFloat mode text _ h2 hc
  obtain ⟨ds', k1, k2, -⟩ := C67_file_is_understood fmtFloat mode file _ hf fun x hx => hc x (hp.mem_iff.mp hx)
  obtain ⟨ds'', m1, m2⟩ := C62_any_statements_in_any_order fmtFloat mode text file (reordered_of_consists h2 hf hp.symm) ds g1 (hn _ g2)
  cases k1.symm.trans m1
  simp only [run, h1, he, hr, (m2 (hw _ k2)).2]
  rfl

/-- Tables without anything but themselves, views and triggers may come in any order. -/
def Free : Written.Statement → Prop
  | .sentence (.table _) => True
  | .sentence _ => False
  | _ => True

theorem wellFormed_free {mode : Mode} {ss : List Written.Statement} {ds : List DDL} (hs : ∀ s ∈ ss, Free s)
    (h : List.Forall₂ (fun s d => Statement.DefinedAs mode s d) ss ds) : WellFormedCurrent ds := by
  intro pre d post e
  have hd : d ∈ ds := by rw [e]; simp
  obtain ⟨s, hm, hx⟩ := (forall2_mem h).2 d hd
  have hf := hs s hm
  cases s with
  | sentence x =>
    cases x with
    | table t =>
      have hk := hx.2
      cases d <;> simp [Sentence.Kind] at hk <;> simp [FollowsCurrent]
    | _ => exact absurd hf (by simp [Free])
  | view v => rw [hx]; simp [FollowsCurrent]
  | trigger g => rw [hx]; simp [FollowsCurrent]

theorem everything_free (ts : List Written.Table) (vs : List NewView) (gs : List NewTrigger) :
    ∀ s ∈ everything (ts.map Sentence.table) vs gs, Free s := by
  intro s hs
  simp only [everything, List.mem_append, List.mem_map] at hs
  rcases hs with (⟨x, ⟨t, -, rfl⟩, rfl⟩ | ⟨v, -, rfl⟩) | ⟨g, -, rfl⟩ <;> simp [Free]

theorem everything_turned {ts ts' : List Written.Table} {vs vs' : List NewView} {gs gs' : List NewTrigger} (h1 : ts'.Perm ts) (h2 : vs'.Perm vs)
    (h3 : gs'.Perm gs) : (everything (ts'.map Sentence.table) vs' gs').Perm (everything (ts.map Sentence.table) vs gs) :=
  ((((h1.map _).map _).append (h2.map _)).append (h3.map _))

/-- What the other server lists. -/
theorem my_lists {cat cat' : My.Catalog} (h : MyListsTheSame cat cat') {ts : List Written.Table} {vs : List NewView} {gs : List NewTrigger}
    (hs : MyDatabaseSaysAll cat ts vs gs) : ∃ ts' vs' gs', ts'.Perm ts ∧ vs'.Perm vs ∧ gs'.Perm gs ∧ MyDatabaseSaysAll cat' ts' vs' gs' := by
  obtain ⟨ts', a1, a2⟩ := List.perm_comp_forall₂ h.tables.symm hs.rest.tables
  obtain ⟨vs', b1, b2⟩ := List.perm_comp_forall₂ h.views.symm hs.rest.views
  obtain ⟨gs', c1, c2⟩ := List.perm_comp_forall₂ h.triggers.symm hs.triggers
  refine ⟨ts', vs', gs', a2, b2, c2, ⟨?_, b1, rfl⟩, c1⟩
  have ht : ∀ n ∈ cat'.tables, cat'.createTable n = cat.createTable n := fun n hn => h.texts n (h.tables.mem_iff.mpr hn)
  clear a2
  generalize cat'.tables = l at a1 ht
  show List.Forall₂ (fun n t => TextStands .mysql (cat'.createTable n) (Written.Table.tokens t)) l ts'
  induction a1 with
  | nil => exact .nil
  | cons hx _ ih => exact .cons (by rw [ht _ (by simp)]; exact hx) (ih fun n hn => ht n (by simp [hn]))

theorem lite_lists {objects objects' : List Lite.Object} (h : LiteListsTheSame objects objects') {ts : List Written.Table} {vs : List NewView}
    (hs : LiteDatabaseSays objects ts vs) : ∃ ts' vs', ts'.Perm ts ∧ vs'.Perm vs ∧ LiteDatabaseSays objects' ts' vs' := by
  obtain ⟨ts', a1, a2⟩ := List.perm_comp_forall₂ (h.rows.symm.filter _) hs.tables
  obtain ⟨vs', b1, b2⟩ := List.perm_comp_forall₂ (h.rows.symm.filter _) hs.views
  exact ⟨ts', vs', a2, b2, a1, h.first, b1⟩

end Sqldef
