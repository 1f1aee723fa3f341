import Verif.Proofs.Needs
import Verif.Props.Removals
/-
C83: when a statement is executed, the tables that it needs are there.
-/
namespace Sqldef
open Spec

variable {mode : Mode} {desired current : List DDL} {out : List Stmt}

/-- **C83**: if every statement of the file comes after the CREATE TABLE of the tables that it needs, then for every statement of the script that
brings something of the file, the tables needed by the statement of the file are there at that point: they were in the database or have been
created before, and have not been dropped. -/
theorem C83_needed_tables_are_there (needs : DDL → List Str) (hw : Workable needs desired) (hd : UniqueTables desired) (hc : UniqueTables current)
    (h : diff mode desired current = .ok out) {p q : List Stmt} {st : Stmt} (ho : out = p ++ st :: q) (hm : ∃ e, MadeFor st e) :
    ∃ d ∈ desired, MadeFor st d ∧ ∀ n ∈ needs d,
      .dropTable n ∉ p ∧ (n ∈ createdNames current ∨ ∃ s t, t.name = n ∧ .createTable s t ∈ desired ∧ .user (.createTable s t) ∈ p) := by
  obtain ⟨x, y, sc⟩ := script hd hc h
  obtain ⟨e, hm⟩ := hm
  obtain ⟨⟨A, d, B, la, e1, e2, e3, e4⟩, hp⟩ := sc.place hm ho
  refine ⟨d, by rw [e1]; simp, made_for_this e2 e3 hm, fun n hn => ⟨fun hx => ?_, ?_⟩⟩
  · have := List.filterMap_eq_nil_iff.mp sc.dropped.1 _ (hp hx)
    cases this
  · by_cases hcur : n ∈ createdNames current
    · exact .inl hcur
    · right
      obtain ⟨t, ht, rfl⟩ := List.mem_map.mp (hw A d B e1 n hn)
      obtain ⟨s, hs⟩ := mem_created.mp ht
      refine ⟨s, t, rfl, by rw [e1]; simp [hs], e4 _ hs [.user (.createTable s t)] ?_ (by simp)⟩
      have : findTableByName (tablesOf current) t.name = none := tableIn_none.mpr hcur
      simp only [defStmts, this]

/-- **C83** for a statement of the file that is executed as it is. -/
theorem C83_statement_of_the_file (needs : DDL → List Str) (hw : Workable needs desired) (hd : UniqueTables desired) (hc : UniqueTables current)
    (h : diff mode desired current = .ok out) {p q : List Stmt} {d : DDL} (ho : out = p ++ .user d :: q) {n : Str} (hn : n ∈ needs d) :
    .dropTable n ∉ p ∧ (n ∈ createdNames current ∨ ∃ s t, t.name = n ∧ .createTable s t ∈ desired ∧ .user (.createTable s t) ∈ p) := by
  obtain ⟨e, -, hm, h1⟩ := C83_needed_tables_are_there needs hw hd hc h ho ⟨d, .itself d⟩
  cases hm
  exact h1 n hn

/-- **C83** for foreign keys: if the file defines every table after those to which it has foreign keys, then the table to which a foreign key is
added is there. -/
theorem C83_foreign_key (hw : Workable (fun d => match d with
      | .createTable _ t => (t.foreignKeys.map (·.referenceName)).filter (· ≠ t.name)
      | _ => []) desired) (hd : UniqueTables desired) (hc : UniqueTables current)
    (h : diff mode desired current = .ok out) {p q : List Stmt} {n : Str} {k : ForeignKey} (ho : out = p ++ .addForeignKey n k :: q)
    (hn : k.referenceName ≠ n) :
    .dropTable k.referenceName ∉ p ∧
      (k.referenceName ∈ createdNames current ∨ ∃ s t, t.name = k.referenceName ∧ .createTable s t ∈ desired ∧ .user (.createTable s t) ∈ p) := by
  obtain ⟨x, y, sc⟩ := script hd hc h
  have hm : ∃ e, MadeFor (.addForeignKey n k) e := by
    generalize hg : Stmt.addForeignKey n k = st at ho
    have hs : st ∈ out := by rw [ho]; simp
    cases sc.origin hs with
    | definition e s he hde =>
      cases hde with
      | table s t x st hf hts =>
        cases hts with
        | column prev c s hm hcol =>
          cases hcol with
          | alter cur s h1 h2 h3 => subst hg; rcases h3 with h3 | h3 | h3 | ⟨_, _, h3⟩ | h3 | ⟨_, _, h3⟩ | h3 | ⟨_, h3⟩ <;> cases h3
          | _ => cases hg
        | addFk f hf _ => exact ⟨_, .key s t f hf⟩
        | _ => cases hg
      | _ => cases hg
    | clean x d s hx hdd hcl => cases hcl <;> cases hg
    | dropTable => cases hg
    | dropView v hv hn => cases hg
  obtain ⟨d, -, hm, h1⟩ := C83_needed_tables_are_there _ hw hd hc h ho hm
  generalize hg : Stmt.addForeignKey n k = st at hm
  cases hm with
  | key s t k' hk =>
    cases hg
    exact h1 _ (List.mem_filter.mpr ⟨List.mem_map_of_mem hk, by simpa using hn⟩)
  | _ => cases hg

/-- **C83** for views: if every statement of the file comes after the views that it needs, then for every statement of the script that brings
something of the file, the views needed by the statement of the file are there at that point. -/
theorem C83_needed_views_are_there (needs : DDL → List Str) (hw : WorkableViews needs desired) (hd : UniqueTables desired) (hc : UniqueTables current)
    (h : diff mode desired current = .ok out) {p q : List Stmt} {st : Stmt} (ho : out = p ++ st :: q) (hm : ∃ e, MadeFor st e) :
    ∃ d ∈ desired, MadeFor st d ∧ ∀ n ∈ needs d, viewThere current n p = true := by
  obtain ⟨x, y, sc⟩ := script hd hc h
  obtain ⟨e, hm⟩ := hm
  obtain ⟨hy, hz⟩ := sc.made_first hm
  have hr : st ∉ y ++ cleanupViews (viewsOf desired) (viewsOf current) := fun hx => (List.mem_append.mp hx).elim hy hz
  have ho' := ho.symm.trans sc.out_eq
  rw [List.append_assoc] at ho'
  have key : ∃ r, x = p ++ st :: r := by
    rcases List.append_eq_append_iff.mp ho' with ⟨a, e1, e2⟩ | ⟨a, e1, e2⟩
    · cases a with
      | nil =>
        rw [List.nil_append] at e2
        exact absurd (by rw [← e2]; simp) hr
      | cons b a =>
        injection e2 with e2 e3
        exact ⟨a, by rw [e1, e2]⟩
    · exact absurd (by rw [e2]; simp) hr
  obtain ⟨r, hx⟩ := key
  obtain ⟨rs, hrs, e4⟩ := concatMapM_ok_iff.mp sc.defs
  obtain ⟨A, d, B, ra, p1, q1, e5, e6, e7, e8⟩ := located_exactly hrs (e4.symm.trans hx)
  refine ⟨d, by rw [e5]; simp, made_for_this e7 (by simp) hm, fun n hn => ?_⟩
  have hA := hw A d B e5 n hn
  have hnew : ∀ v, d = .view v → v.name ≠ n := by
    rintro v rfl rfl
    exact sc.wd A _ B e5 hA
  unfold viewThere
  rw [e8, List.foldl_append, keep_view hnew fun s hs => defStmts_shape e7 (by simp [hs])]
  exact views_there e6 (by simp) (.inr (.inl hA))

/-! ### An example -/

/-- A file with two new tables, the second with a foreign key to the first, for a database that has the second without the key. -/
def exNeedy : List DDL := [.createTable (lit "CREATE TABLE users ()") exPeople, .createTable (lit "CREATE TABLE visits ()") exVisits]

theorem exNeedy_script : diff .postgres exNeedy [.createTable [] { exVisits with foreignKeys := [] }] =
    .ok ([.user (.createTable (lit "CREATE TABLE users ()") exPeople)] ++
      .addForeignKey (lit "public.visits") { constraintName := lit "k", indexColumns := [lit "u"], referenceName := lit "public.users", referenceColumns := [lit "id"] } :: []) := by
  decide +kernel

example : ∃ s t, t.name = lit "public.users" ∧ DDL.createTable s t ∈ exNeedy ∧
    Stmt.user (.createTable s t) ∈ [Stmt.user (.createTable (lit "CREATE TABLE users ()") exPeople)] := by
  refine (C83_foreign_key ?_ (by decide +kernel) (by decide +kernel) exNeedy_script rfl (by decide +kernel)).2.resolve_left (by decide +kernel)
  intro A d B e n hn
  match A, e with
  | [], e => cases e; simp [exPeople] at hn
  | [a], e =>
    cases e
    simp [exVisits] at hn
    rw [hn.1]
    decide +kernel
  | _ :: _ :: A, e => simp [exNeedy] at e

/-- Two views of a file, of which the second needs the first. -/
def exBaseView : View := { statement := lit "CREATE VIEW a AS SELECT 1", name := lit "a", definition := lit "select 1" }

def exUpperView : View := { statement := lit "CREATE VIEW b AS SELECT * FROM a", name := lit "b", definition := lit "select * from a" }

/-- In a SQL Server database the first view has another query and the second is missing. -/
theorem exViews_script : diff .mssql [.view exBaseView, .view exUpperView] [.view { exBaseView with definition := lit "select 2" }] =
    .ok ([.dropView (lit "a"), .createView (lit "a") (lit "select 1")] ++ .user (.view exUpperView) :: []) := by
  decide +kernel

example : viewThere [.view { exBaseView with definition := lit "select 2" }] (lit "a") [.dropView (lit "a"), .createView (lit "a") (lit "select 1")] = true := by
  obtain ⟨d, -, hm, h⟩ := C83_needed_views_are_there (fun d => if d = .view exUpperView then [lit "a"] else []) (by
    intro A d B e n hn
    match A, e with
    | [], e => cases e; revert n; decide +kernel
    | [a], e =>
      cases e
      revert n
      decide +kernel
    | _ :: _ :: A, e => simp at e) (by decide +kernel) (by decide +kernel) exViews_script rfl ⟨_, .itself _⟩
  cases hm
  exact h (lit "a") (by decide +kernel)

end Sqldef
