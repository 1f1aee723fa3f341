import Verif.Spec.Removals
import Verif.Proofs.DefStmt
import Verif.Props.Objects
/-
The order of removals across tables and views.
-/
namespace Sqldef
open Spec

variable {mode : Mode} {desired current : List DDL} {out x y : List Stmt}

theorem filterMap_none {α β : Type} {f : α → Option β} {l : List α} (h : ∀ a ∈ l, f a = none) : l.filterMap f = [] := by
  rw [List.filterMap_eq_nil_iff]
  exact h

theorem made_from {α β : Type} {f : α → Except Err (List β)} : ∀ {l : List α} {rs : List (List β)},
    List.Forall₂ (fun a x => f a = .ok x) l rs → ∀ r ∈ rs, ∃ a ∈ l, f a = .ok r
  | _, _, .nil, _, h => by cases h
  | _, _, .cons h t, r, hr => by
    rcases List.mem_cons.mp hr with rfl | hr
    · exact ⟨_, by simp, h⟩
    · obtain ⟨a, ha, e⟩ := made_from t r hr
      exact ⟨a, by simp [ha], e⟩

theorem table_statement_drops_no_table {x t : Table} {st : Stmt} (h : TableStmt mode x t st) : droppedTable st = none := by
  cases h with
  | column prev c s hm hcol =>
    cases hcol with
    | alter cur s h1 h2 h3 => rcases h3 with h3 | h3 | h3 | ⟨_, _, h3⟩ | h3 | ⟨_, _, h3⟩ | h3 | ⟨_, h3⟩ <;> (subst h3; rfl)
    | _ => rfl
  | _ => rfl

theorem definition_drops_no_table {cur : List Table} {cv : List View} {ct : List Trigger} {d : DDL} {st : Stmt}
    (h : DefStmt mode cur cv ct d st) : droppedTable st = none := by
  cases h with
  | table s t x st hf hts => exact table_statement_drops_no_table hts
  | _ => rfl

theorem clean_drops_no_table {x d : Table} {st : Stmt} (h : CleanStmt mode x d st) : droppedTable st = none := by
  cases h <;> rfl

/-- The tables that the clean-up drops, in order. -/
theorem dropped_by_cleanup {D : List Table} : ∀ {ts : List Table} {y : List Stmt}, concatMapM (tableCleanup mode D) ts = .ok y →
    y.filterMap droppedTable = (ts.map (·.name)).filter fun n => decide (n ∉ D.map (·.name))
  | [], y, h => by cases h; rfl
  | t :: ts, y, h => by
    simp only [concatMapM, bind, Except.bind] at h
    split at h
    · cases h
    next a ha =>
    split at h
    · cases h
    next b hb =>
    cases h
    rw [List.filterMap_append, dropped_by_cleanup hb, List.map_cons, List.filter_cons]
    unfold tableCleanup at ha
    split at ha
    · next hf =>
      cases ha
      have hn : t.name ∉ D.map (·.name) := by
        intro hm
        obtain ⟨d, hd, e⟩ := List.mem_map.mp hm
        have := List.find?_eq_none.mp hf d hd
        simp [e] at this
      rw [if_pos (by simpa using hn)]
      rfl
    · next d hf =>
      have hn : t.name ∈ D.map (·.name) := List.mem_map.mpr ⟨d, find_mem hf, find_name hf⟩
      rw [if_neg (by simpa using hn), filterMap_none fun s hs => clean_drops_no_table (cleanup_shape ha s hs)]
      rfl

theorem Script.dropped (sc : Script mode desired current out x y) :
    x.filterMap droppedTable = [] ∧ y.filterMap droppedTable = (createdNames current).filter fun n => decide (n ∉ createdNames desired) := by
  constructor
  · refine filterMap_none fun s hs => ?_
    obtain ⟨rs, hrs, rfl⟩ := concatMapM_ok_iff.mp sc.defs
    obtain ⟨l, hl, hs⟩ := List.mem_flatten.mp hs
    obtain ⟨d, hd, hdl⟩ := made_from hrs l hl
    exact definition_drops_no_table (defStmts_shape hdl hs)
  · rw [dropped_by_cleanup sc.clean, names_tablesOf, names_tablesOf]

/-- A view that the file does not mention is dropped by the last part of the script. -/
theorem Script.view_dropped_last (sc : Script mode desired current out x y) {n : Str} (hn : n ∉ (viewsOf desired).map (·.name)) :
    .dropView n ∉ x ++ y := by
  intro hs
  rw [List.mem_append] at hs
  generalize hg : Stmt.dropView n = st at hs
  rcases hs with hs | hs
  · obtain ⟨rs, hrs, rfl⟩ := concatMapM_ok_iff.mp sc.defs
    obtain ⟨l, hl, hs⟩ := List.mem_flatten.mp hs
    obtain ⟨d, hd, hdl⟩ := made_from hrs l hl
    cases defStmts_shape hdl hs with
    | table s t x st hf hts =>
      cases hts with
      | column prev c s hm hcol =>
        cases hcol with
        | alter cur s h1 h2 h3 => subst hg; rcases h3 with h3 | h3 | h3 | ⟨_, _, h3⟩ | h3 | ⟨_, _, h3⟩ | h3 | ⟨_, h3⟩ <;> cases h3
        | _ => cases hg
      | _ => cases hg
    | dropView v c h1 h2 h3 =>
      cases hg
      exact hn (List.mem_map_of_mem (viewsOf_def.2 hd))
    | _ => cases hg
  · obtain ⟨rs, hrs, rfl⟩ := concatMapM_ok_iff.mp sc.clean
    obtain ⟨l, hl, hs⟩ := List.mem_flatten.mp hs
    obtain ⟨t, ht, hdl⟩ := made_from hrs l hl
    unfold tableCleanup at hdl
    split at hdl
    · cases hdl
      rw [List.mem_singleton.1 hs] at hg
      cases hg
    · have := cleanup_shape hdl st hs
      subst hg
      cases this

theorem views_drop_no_table (D C : List View) : (cleanupViews D C).filterMap droppedTable = [] := by
  refine filterMap_none fun s hs => ?_
  obtain ⟨v, -, rfl⟩ := List.mem_map.mp hs
  rfl

/-- A run in which a table is dropped while something depends on it ends with an error. -/
theorem loop_refused {σ : Type} {db : Db σ} {script : List Stmt} {release : Stmt} {t : Str} {depends : σ → Prop}
    (g : Guards db mode script release t depends) (q : List Stmt) :
    ∀ (p : List Stmt) (s : σ), (∀ st ∈ p, st ∈ script ∧ st ≠ release) → depends s →
      (runLoop db false ((p ++ .dropTable t :: q).map (Stmt.render mode)) s).err ≠ none
  | [], s, _, hd => by
    have h := g.refuses s hd
    simp only [List.nil_append, List.map_cons, Stmt.render, runLoop, isSkipped, Bool.false_and, Bool.false_eq_true, if_false]
    split
    · simp
    · next s' he => exact absurd (by rw [he]) h
  | st :: p, s, hp, hd => by
    have hk := g.kept s st (hp st (by simp)).1 (hp st (by simp)).2 hd
    simp only [List.cons_append, List.map_cons, runLoop, isSkipped, Bool.false_and, Bool.false_eq_true, if_false]
    split
    · simp
    · next s' he =>
      rw [he] at hk
      exact loop_refused g q p s' (fun x hx => hp x (by simp [hx])) hk

theorem run_refused {σ : Type} {db : Db σ} {release : Stmt} {t : Str} {depends : σ → Prop} {p q : List Stmt}
    (g : Guards db mode (p ++ .dropTable t :: q) release t depends) (s : σ) (hp : release ∉ p) (hd : depends s) :
    (runDDLs db ((p ++ .dropTable t :: q).map (Stmt.render mode)) false s).err ≠ none := by
  unfold runDDLs
  have hb := g.begin s hd
  split
  · simp
  · next s' he =>
    rw [he] at hb
    exact loop_refused g q p s' (fun st hst => ⟨by simp [hst], fun e => hp (e ▸ hst)⟩) hb

end Sqldef
