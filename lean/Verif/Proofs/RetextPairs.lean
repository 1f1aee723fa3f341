import Verif.Proofs.Retext
import Mathlib.Data.List.Forall2

/-! Two desired schemas that differ in nothing but the texts of their statements. -/
namespace Sqldef
open Spec

theorem table_no_user {mode : Mode} {x d : Table} {l : List Stmt} (h : generateDDLsForCreateTable mode x d = .ok l) (e : DDL) :
    Stmt.user e ∉ l := by
  intro hs
  have h1 := createTable_retext (fun s => 'x' :: s) h
  have h2 : ∀ s ∈ l, s.retext (fun s => 'x' :: s) = s := by
    have := List.map_eq_map_iff.mp (h1.trans (List.map_id l).symm)
    exact this
  have h3 := h2 _ hs
  simp only [Stmt.retext, Stmt.user.injEq, DDL.retext] at h3
  cases e <;> simp [DDL.withText, DDL.statement] at h3
  all_goals
    rename_i v
    have := congrArg (fun v => (v.statement).length) h3
    simp at this

theorem step_user {g g' : Gen} {d : DDL} {l : List Stmt} (h : step g d = .ok (g', l)) (e : DDL) (he : Stmt.user e ∈ l) : e = d := by
  cases d with
  | createTable s t =>
    simp only [step, stepCreateTable] at h
    split at h
    · obtain ⟨x, hx, h⟩ := bind_ok.1 h
      cases h
      exact absurd he (table_no_user hx e)
    · cases h
      simpa using he
  | createIndex s n i =>
    simp only [step, stepCreateIndex] at h
    split at h
    · cases h
    · split at h
      · cases h
      · split at h
        · cases h
        · cases h
          split at he
          · simpa using he
          · split at he
            · simpa using he
            · simp at he
  | addIndex s n i =>
    simp only [step, stepCreateIndex] at h
    split at h
    · cases h
    · split at h
      · cases h
      · split at h
        · cases h
        · cases h
          split at he
          · simpa using he
          · split at he
            · simpa using he
            · simp at he
  | addPolicy s n i =>
    simp only [step, stepCreatePolicy] at h
    split at h
    · cases h
    · split at h
      · cases h
      · split at h
        · cases h
        · cases h
          split at he
          · simpa using he
          · split at he
            · simpa using he
            · simp at he
  | addForeignKey s n f =>
    simp only [step, stepAddForeignKey] at h
    split at h
    · cases h
    · split at h
      · cases h
      · cases h
        simp at he
  | addPrimaryKey s n i => cases h
  | view v =>
    simp only [step, stepCreateView] at h
    split at h
    · cases h
    · cases h
      split at he
      · simpa using he
      · split at he
        · split at he <;> simp at he
        · simp at he
  | trigger t =>
    simp only [step, stepCreateTrigger] at h
    split at h
    · cases h
      split at he
      · simp at he
      · split at he <;> simp at he
    · cases h
      split at he
      · simp at he
      · split at he <;> simp at he
    · cases h
      simp at he

theorem steps_user (ds : List DDL) : ∀ {g g' : Gen} {l : List Stmt}, steps g ds = .ok (g', l) → ∀ e, Stmt.user e ∈ l → e ∈ ds := by
  induction ds with
  | nil =>
    intro g g' l h e he
    cases h
    cases he
  | cons d ds ih =>
    intro g g' l h e he
    unfold steps at h
    obtain ⟨⟨g1, l1⟩, h1, h⟩ := bind_ok.1 h
    obtain ⟨⟨g2, l2⟩, h2, h⟩ := bind_ok.1 h
    cases h
    rcases List.mem_append.mp he with he | he
    · exact List.mem_cons.mpr (.inl (step_user h1 e he))
    · exact List.mem_cons_of_mem _ (ih h2 e he)

theorem cleanup_no_user {mode : Mode} {D : List Table} {ts R : List Table} {l : List Stmt} (h : cleanupTables mode D R ts = .ok l) (e : DDL) :
    Stmt.user e ∉ l := by
  intro hs
  have h1 := cleanupTables_retext (fun s => 'x' :: s) mode D ts R h
  have h2 : ∀ s ∈ l, s.retext (fun s => 'x' :: s) = s := by
    have := List.map_eq_map_iff.mp (h1.trans (List.map_id l).symm)
    exact this
  have h3 := h2 _ hs
  simp only [Stmt.retext, Stmt.user.injEq, DDL.retext] at h3
  cases e <;> simp [DDL.withText, DDL.statement] at h3
  all_goals
    rename_i v
    have := congrArg (fun v => (v.statement).length) h3
    simp at this

/-- What is passed on was asked for. -/
theorem diff_user {mode : Mode} {want cur : List DDL} {l : List Stmt} (h : diff mode want cur = .ok l) (e : DDL) (he : Stmt.user e ∈ l) :
    e ∈ want := by
  unfold diff at h
  obtain ⟨ts, -, h⟩ := bind_ok.1 h
  unfold generateDDLs at h
  obtain ⟨⟨g1, l1⟩, h1, h⟩ := bind_ok.1 h
  obtain ⟨l2, h2, h⟩ := bind_ok.1 h
  cases h
  simp only [List.mem_append] at he
  rcases he with (he | he) | he
  · exact steps_user want h1 e he
  · exact absurd he (cleanup_no_user h2 e)
  · unfold cleanupViews at he
    simp at he

/-- Nothing but the text of the statement differs. -/
def SameButText (d d' : DDL) : Prop := d.withText d'.statement = d'

theorem withText_statement (d : DDL) (x : Str) : (d.withText x).statement = x := by cases d <;> rfl

/-- The definitions with a number in the place of the text. -/
def numbered (ds : List DDL) : List DDL := ds.mapIdx fun i d => d.withText (List.replicate i 'x')

theorem numbered_retext {ds ds' : List DDL} (h : List.Forall₂ SameButText ds ds') :
    (numbered ds).map (DDL.retext fun t => (ds'.map DDL.statement).getD t.length []) = ds' := by
  have hl := h.length_eq
  refine List.ext_getElem (by simp [numbered, hl]) fun i h1 h2 => ?_
  have hi : i < ds.length := by simpa [numbered] using h1
  simp only [numbered, List.getElem_map, List.getElem_mapIdx, DDL.retext, withText_withText, withText_statement, List.length_replicate]
  have e : (ds'.map DDL.statement).getD i [] = ds'[i].statement := by
    rw [List.getD_eq_getElem?_getD, List.getElem?_map, List.getElem?_eq_getElem h2]
    rfl
  rw [e]
  exact (List.forall₂_iff_get.mp h).2 i hi h2

theorem sameButText_refl (d : DDL) : SameButText d d := by cases d <;> rfl

theorem retext_id_list (ds : List DDL) : ds.map (DDL.retext id) = ds := by
  conv => rhs; rw [← List.map_id ds]
  exact List.map_congr_left fun d _ => ddl_retext_id d

theorem render_retext (mode : Mode) (u : Str → Str) (s : Stmt) (h : ∀ d, s ≠ .user d) : (s.retext u).render mode = s.render mode := by
  cases s <;> first | rfl | exact absurd rfl (h _)

theorem numbered_mem {ds : List DDL} {e : DDL} (h : e ∈ numbered ds) :
    ∃ i, ∃ _ : i < ds.length, e.statement = List.replicate i 'x' := by
  obtain ⟨i, hi, he⟩ := List.mem_iff_getElem.mp h
  have hi' : i < ds.length := by simpa [numbered] using hi
  refine ⟨i, hi', ?_⟩
  rw [← he]
  simp only [numbered, List.getElem_mapIdx, withText_statement]

/-- Other texts of the desired statements lead to the same changes, in which the texts are exchanged. -/
theorem diff_pairs (mode : Mode) {want want' : List DDL} (cur : List DDL) (h : List.Forall₂ SameButText want want') :
    (∃ e, diff mode want cur = .error e ∧ diff mode want' cur = .error e) ∨
    ∃ l l', diff mode want cur = .ok l ∧ diff mode want' cur = .ok l' ∧
      List.Forall₂ (fun x y => x = y ∨ (x, y) ∈ (want.map DDL.statement).zip (want'.map DDL.statement))
        (l.map (Stmt.render mode)) (l'.map (Stmt.render mode)) := by
  have hr : List.Forall₂ SameButText want want := List.forall₂_same.mpr fun d _ => sameButText_refl d
  have e1 := diff_retext (fun t => (want.map DDL.statement).getD t.length []) id mode (numbered want) cur
  have e2 := diff_retext (fun t => (want'.map DDL.statement).getD t.length []) id mode (numbered want) cur
  rw [numbered_retext hr, retext_id_list] at e1
  rw [numbered_retext h, retext_id_list] at e2
  cases hd : diff mode (numbered want) cur with
  | error e =>
    rw [hd] at e1 e2
    exact .inl ⟨e, e1, e2⟩
  | ok l =>
    rw [hd] at e1 e2
    refine .inr ⟨_, _, e1, e2, ?_⟩
    rw [List.map_map, List.map_map, List.forall₂_map_left_iff, List.forall₂_map_right_iff, List.forall₂_same]
    intro s hs
    by_cases hu : ∃ d, s = .user d
    · obtain ⟨d, rfl⟩ := hu
      obtain ⟨i, hi, ht⟩ := numbered_mem (diff_user hd d hs)
      have hi' : i < want'.length := h.length_eq ▸ hi
      right
      simp only [Function.comp_apply, Stmt.retext, Stmt.render, DDL.retext, withText_statement, ht, List.length_replicate]
      refine List.mem_iff_getElem.mpr ⟨i, by simp only [List.length_zip, List.length_map]; omega, ?_⟩
      simp [List.getElem_zip, hi, hi']
    · left
      rw [Function.comp_apply, Function.comp_apply, render_retext _ _ _ (fun d e => hu ⟨d, e⟩), render_retext _ _ _ (fun d e => hu ⟨d, e⟩)]

/-- Other texts of the current statements lead to the same changes. -/
theorem diff_current (mode : Mode) (want : List DDL) {cur cur' : List DDL} (h : List.Forall₂ SameButText cur cur') :
    diff mode want cur = diff mode want cur' := by
  have e1 := diff_retext id (fun _ => []) mode want cur
  have e2 := diff_retext id (fun _ => []) mode want cur'
  have e : cur.map (DDL.retext fun _ => []) = cur'.map (DDL.retext fun _ => []) := by
    induction h with
    | nil => rfl
    | @cons a b as bs hab _ ih =>
      have : DDL.retext (fun _ => []) a = DDL.retext (fun _ => []) b := by
        unfold DDL.retext
        rw [← show a.withText b.statement = b from hab, withText_withText]
      rw [List.map_cons, List.map_cons, this, ih (diff_retext _ _ _ _ _) (diff_retext _ _ _ _ _)]
  rw [e, e2] at e1
  have hi : ∀ x : Except Err (List Stmt), x.map (·.map (Stmt.retext id)) = x := by
    intro x
    cases x with
    | error e => rfl
    | ok l =>
      change Except.ok _ = Except.ok _
      congr 1
      conv => rhs; rw [← List.map_id l]
      exact List.map_congr_left fun s _ => stmt_retext_id s
  rw [hi, hi] at e1
  exact e1.symm

end Sqldef
