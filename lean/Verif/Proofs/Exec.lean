import Verif.Spec.Catalog
/-! Executing a script amounts to executing, for every table, view and trigger, the statements about it. -/
namespace Sqldef
open Spec

/-- Execution of statements about one table. -/
def runTable (mode : Mode) : List Stmt → Option Table → Option (Option Table)
  | [], o => some o
  | s :: l, o => (execTable mode s o).bind (runTable mode l)

/-- Execution of statements about one view. -/
def runView : List Stmt → Option View → Option (Option View)
  | [], o => some o
  | s :: l, o => (execView s o).bind (runView l)

/-- Execution of statements about one trigger. -/
def runTrigger : List Stmt → Option Trigger → Option (Option Trigger)
  | [], o => some o
  | s :: l, o => (execTrigger s o).bind (runTrigger l)

theorem runTable_append (mode : Mode) (l m : List Stmt) (o : Option Table) :
    runTable mode (l ++ m) o = (runTable mode l o).bind (runTable mode m) := by
  induction l generalizing o with
  | nil => rfl
  | cons s l ih =>
    simp only [List.cons_append, runTable]
    cases execTable mode s o with
    | none => rfl
    | some o' => simp [ih]

theorem view_of_table {s : Stmt} {n : Str} (h : Stmt.table s = some n) : Stmt.view s = none ∧ Stmt.trigger s = none := by
  cases s with
  | user d => cases d <;> simp_all [Stmt.table, DDL.table, Stmt.view, Stmt.trigger]
  | _ => simp_all [Stmt.table, Stmt.view, Stmt.trigger]

theorem trigger_of_view {s : Stmt} {n : Str} (h : Stmt.view s = some n) : Stmt.table s = none ∧ Stmt.trigger s = none := by
  cases s with
  | user d => cases d <;> simp_all [Stmt.table, DDL.table, Stmt.view, Stmt.trigger]
  | _ => simp_all [Stmt.table, Stmt.view, Stmt.trigger]

theorem table_of_trigger {s : Stmt} {n : Str} (h : Stmt.trigger s = some n) : Stmt.table s = none ∧ Stmt.view s = none := by
  cases s with
  | user d => cases d <;> simp_all [Stmt.table, DDL.table, Stmt.view, Stmt.trigger]
  | _ => simp_all [Stmt.table, Stmt.view, Stmt.trigger]

/-- Every statement is about a table, a view or a trigger. -/
theorem stmt_about (s : Stmt) : (∃ n, Stmt.table s = some n) ∨ (∃ n, Stmt.view s = some n) ∨ ∃ n, Stmt.trigger s = some n := by
  cases s with
  | user d => cases d <;> simp [Stmt.table, DDL.table, Stmt.view, Stmt.trigger]
  | _ => simp [Stmt.table, Stmt.view, Stmt.trigger]

theorem execAll_parts (mode : Mode) (out : List Stmt) (c c' : Catalog)
    (ht : ∀ n, runTable mode (out.filter fun s => decide (Stmt.table s = some n)) (c.table n) = some (c'.table n))
    (hv : ∀ n, runView (out.filter fun s => decide (Stmt.view s = some n)) (c.view n) = some (c'.view n))
    (hr : ∀ n, runTrigger (out.filter fun s => decide (Stmt.trigger s = some n)) (c.trigger n) = some (c'.trigger n)) :
    execAll mode out c = some c' := by
  induction out generalizing c with
  | nil =>
    simp only [List.filter_nil, runTable, runView, runTrigger, Option.some.injEq] at ht hv hr
    simp only [execAll, Option.some.injEq]
    cases c; cases c'
    simp only [Catalog.mk.injEq]
    exact ⟨funext ht, funext hv, funext hr⟩
  | cons s l ih =>
    rcases stmt_about s with ⟨n, hn⟩ | ⟨n, hn⟩ | ⟨n, hn⟩
    · obtain ⟨hn2, hn3⟩ := view_of_table hn
      have h1 := ht n
      rw [List.filter_cons_of_pos (by simpa using hn)] at h1
      simp only [runTable] at h1
      obtain ⟨o, ho, h1⟩ := Option.bind_eq_some_iff.1 h1
      simp only [execAll, exec, hn, ho, Option.map_some, Option.bind_some]
      refine ih _ (fun m => ?_) (fun m => ?_) (fun m => ?_)
      · by_cases hm : m = n
        · subst hm; simpa [update] using h1
        · have := ht m
          rw [List.filter_cons_of_neg (by simp [hn, Ne.symm hm])] at this
          simpa [update, hm] using this
      · have := hv m
        rwa [List.filter_cons_of_neg (by simp [hn2])] at this
      · have := hr m
        rwa [List.filter_cons_of_neg (by simp [hn3])] at this
    · obtain ⟨hn2, hn3⟩ := trigger_of_view hn
      have h1 := hv n
      rw [List.filter_cons_of_pos (by simpa using hn)] at h1
      simp only [runView] at h1
      obtain ⟨o, ho, h1⟩ := Option.bind_eq_some_iff.1 h1
      simp only [execAll, exec, hn, hn2, ho, Option.map_some, Option.bind_some]
      refine ih _ (fun m => ?_) (fun m => ?_) (fun m => ?_)
      · have := ht m
        rwa [List.filter_cons_of_neg (by simp [hn2])] at this
      · by_cases hm : m = n
        · subst hm; simpa [update] using h1
        · have := hv m
          rw [List.filter_cons_of_neg (by simp [hn, Ne.symm hm])] at this
          simpa [update, hm] using this
      · have := hr m
        rwa [List.filter_cons_of_neg (by simp [hn3])] at this
    · obtain ⟨hn2, hn3⟩ := table_of_trigger hn
      have h1 := hr n
      rw [List.filter_cons_of_pos (by simpa using hn)] at h1
      simp only [runTrigger] at h1
      obtain ⟨o, ho, h1⟩ := Option.bind_eq_some_iff.1 h1
      simp only [execAll, exec, hn, hn2, hn3, ho, Option.map_some, Option.bind_some]
      refine ih _ (fun m => ?_) (fun m => ?_) (fun m => ?_)
      · have := ht m
        rwa [List.filter_cons_of_neg (by simp [hn2])] at this
      · have := hv m
        rwa [List.filter_cons_of_neg (by simp [hn3])] at this
      · by_cases hm : m = n
        · subst hm; simpa [update] using h1
        · have := hr m
          rw [List.filter_cons_of_neg (by simp [hn, Ne.symm hm])] at this
          simpa [update, hm] using this

/-- Execution of statements on an existing table. -/
def alters (mode : Mode) : List Stmt → Table → Option Table
  | [], t => some t
  | s :: l, t => (alter mode s t).bind (alters mode l)

theorem alters_append (mode : Mode) (l m : List Stmt) (t : Table) :
    alters mode (l ++ m) t = (alters mode l t).bind (alters mode m) := by
  induction l generalizing t with
  | nil => rfl
  | cons s l ih =>
    simp only [List.cons_append, alters]
    cases alter mode s t with
    | none => rfl
    | some o' => simp [ih]

theorem alter_eq {mode : Mode} {s : Stmt} (t : Table) (h : mode = .sqlite3 → sqliteKnows s = true) :
    alter mode s t = change mode s t := by
  unfold alter
  rw [if_neg]
  rintro ⟨h1, h2⟩
  rw [h h1] at h2
  cases h2

theorem change_of_alter {mode : Mode} {s : Stmt} {t t' : Table} (h : alter mode s t = some t') : change mode s t = some t' := by
  unfold alter at h
  split at h
  · cases h
  · exact h

theorem execTable_alter {mode : Mode} {s : Stmt} {t t' : Table} (h : alter mode s t = some t') :
    execTable mode s (some t) = some (some t') := by
  have hc := change_of_alter h
  cases s with
  | user d => cases d <;> first | (simp [change] at hc; done) | simp [execTable, h]
  | dropTable n => simp [change] at hc
  | _ => simp [execTable, h]

theorem runTable_alters {mode : Mode} {l : List Stmt} {t t' : Table} (h : alters mode l t = some t') :
    runTable mode l (some t) = some (some t') := by
  induction l generalizing t with
  | nil => simpa [alters, runTable] using h
  | cons s l ih =>
    simp only [alters] at h
    obtain ⟨u, hu, h⟩ := Option.bind_eq_some_iff.1 h
    simp [runTable, execTable_alter hu, ih h]

end Sqldef
