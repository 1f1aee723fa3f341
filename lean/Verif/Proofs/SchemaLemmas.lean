import Mathlib.Data.List.Forall2
import Mathlib.Data.List.Nodup
import Mathlib.Data.List.Basic
import Verif.Model.Generator
import Verif.Spec.Schema
/-! Lemmas about the schema described by a list of definitions and about the table lists of the generator. -/
namespace Sqldef
open Spec

/-! ### appending a definition -/

theorem created_append (a b : List DDL) : created (a ++ b) = created a ++ created b := by
  induction a with
  | nil => rfl
  | cons d a ih => cases d <;> simp [created, ih]

theorem createdNames_append (a b : List DDL) : createdNames (a ++ b) = createdNames a ++ createdNames b := by
  simp [createdNames, created_append]

theorem indexesFor_append (n : Str) (a b : List DDL) : indexesFor n (a ++ b) = indexesFor n a ++ indexesFor n b := by
  induction a with
  | nil => rfl
  | cons d a ih =>
    cases d <;> simp only [List.cons_append, indexesFor, ih]
    all_goals split <;> simp

theorem foreignKeysFor_append (n : Str) (a b : List DDL) :
    foreignKeysFor n (a ++ b) = foreignKeysFor n a ++ foreignKeysFor n b := by
  induction a with
  | nil => rfl
  | cons d a ih =>
    cases d <;> simp only [List.cons_append, foreignKeysFor, ih]
    all_goals split <;> simp

theorem policiesFor_append (n : Str) (a b : List DDL) : policiesFor n (a ++ b) = policiesFor n a ++ policiesFor n b := by
  induction a with
  | nil => rfl
  | cons d a ih =>
    cases d <;> simp only [List.cons_append, policiesFor, ih]
    all_goals split <;> simp

theorem markedPrimary_append (n c : Str) (a b : List DDL) :
    markedPrimary n c (a ++ b) = (markedPrimary n c a || markedPrimary n c b) := by
  induction a with
  | nil => simp [markedPrimary]
  | cons d a ih => cases d <;> simp [markedPrimary, ih, Bool.or_assoc]

theorem viewsOf_append (a b : List DDL) : viewsOf (a ++ b) = viewsOf a ++ viewsOf b := by
  induction a with
  | nil => rfl
  | cons d a ih => cases d <;> simp [viewsOf, ih]

theorem triggersOf_append (a b : List DDL) : triggersOf (a ++ b) = triggersOf a ++ triggersOf b := by
  induction a with
  | nil => rfl
  | cons d a ih => cases d <;> simp [triggersOf, ih]

theorem convertDDLsToViews_eq (ds : List DDL) : convertDDLsToViews ds = viewsOf ds := by
  induction ds with
  | nil => rfl
  | cons d ds ih =>
    unfold convertDDLsToViews at *
    cases d <;> simp [viewsOf, ih]

theorem convertDDLsToTriggers_eq (ds : List DDL) : convertDDLsToTriggers ds = triggersOf ds := by
  induction ds with
  | nil => rfl
  | cons d ds ih =>
    unfold convertDDLsToTriggers at *
    cases d <;> simp [triggersOf, ih]

@[simp] theorem complete_name (ds : List DDL) (t : Table) : (complete ds t).name = t.name := rfl

theorem names_tablesOf (ds : List DDL) : (tablesOf ds).map (·.name) = createdNames ds := by
  simp [tablesOf, createdNames]

theorem map_primary_id (cs : List Column) (p : Column → Bool) (h : ∀ c ∈ cs, p c = false) :
    cs.map (fun c => if p c then { c with keyOption := .primary } else c) = cs := by
  induction cs with
  | nil => rfl
  | cons c cs ih => simp [h c (by simp), ih fun c hc => h c (by simp [hc])]

/-- Effect on the described tables of one more definition on table `n`, given by `f` (an update of the
table of that name). -/
theorem tablesOf_snoc_update (pre : List DDL) (d : DDL) (n : Str) (f : Table → Table)
    (hc : created [d] = [])
    (h : ∀ t : Table, complete (pre ++ [d]) t = if t.name = n then f (complete pre t) else complete pre t) :
    tablesOf (pre ++ [d]) = (tablesOf pre).map fun t => if t.name = n then f t else t := by
  simp only [tablesOf, created_append, hc, List.append_nil, List.map_map]
  apply List.map_congr_left
  intro t _
  by_cases hn : t.name = n <;> simp [h, hn]

/-! ### looking up and updating tables -/

theorem find_name {ts : List Table} {n : Str} {t : Table} (h : findTableByName ts n = some t) : t.name = n := by
  simpa using List.find?_some h

theorem find_mem {ts : List Table} {n : Str} {t : Table} (h : findTableByName ts n = some t) : t ∈ ts :=
  List.mem_of_find?_eq_some h

theorem find_none {ts : List Table} {n : Str} : findTableByName ts n = none ↔ n ∉ ts.map (·.name) := by
  simp only [findTableByName, List.find?_eq_none, List.mem_map, not_exists, not_and]
  constructor
  · intro h t ht; simpa using h t ht
  · intro h t ht; simpa using h t ht

theorem find_isSome {ts : List Table} {n : Str} : (∃ t, findTableByName ts n = some t) ↔ n ∈ ts.map (·.name) := by
  cases h : findTableByName ts n with
  | none => simp [find_none.1 h]
  | some t =>
    simp only [Option.some.injEq, exists_eq', true_iff]
    exact List.mem_map.2 ⟨t, find_mem h, find_name h⟩

theorem find_of_mem {ts : List Table} (hu : (ts.map (·.name)).Nodup) {t : Table} (h : t ∈ ts) :
    findTableByName ts t.name = some t := by
  induction ts with
  | nil => simp at h
  | cons x ts ih =>
    simp only [List.map_cons, List.nodup_cons] at hu
    rcases List.mem_cons.1 h with rfl | h
    · simp [findTableByName]
    · have : x.name ≠ t.name := fun e => hu.1 (e ▸ List.mem_map_of_mem h)
      have ih := ih hu.2 h
      simp [findTableByName, this] at ih ⊢
      exact ih

theorem updateTable_eq_map (ts : List Table) (n : Str) (f : Table → Table) (hu : (ts.map (·.name)).Nodup) :
    updateTable ts n f = ts.map fun t => if t.name = n then f t else t := by
  induction ts with
  | nil => rfl
  | cons t ts ih =>
    simp only [List.map_cons, List.nodup_cons] at hu
    simp only [updateTable, List.map_cons]
    split
    · next h =>
      rw [List.map_congr_left (g := id)]
      · simp
      · intro x hx
        have : x.name ≠ n := fun e => hu.1 (by rw [h, ← e]; exact List.mem_map_of_mem hx)
        simp [this]
    · rw [ih hu.2]

theorem updateTable_names (ts : List Table) (n : Str) (f : Table → Table) (h : ∀ t, (f t).name = t.name) :
    (updateTable ts n f).map (·.name) = ts.map (·.name) := by
  induction ts with
  | nil => rfl
  | cons t ts ih =>
    simp only [updateTable]
    split <;> simp [h, ih]

theorem updateTable_append_left (a b : List Table) (n : Str) (f : Table → Table) (h : n ∈ a.map (·.name)) :
    updateTable (a ++ b) n f = updateTable a n f ++ b := by
  induction a with
  | nil => simp at h
  | cons t a ih =>
    simp only [List.cons_append, updateTable]
    split
    · simp
    · next hn =>
      simp only [List.map_cons, List.mem_cons] at h
      rw [ih (h.resolve_left fun e => hn e.symm)]
      simp

theorem updateTable_append_right (a b : List Table) (n : Str) (f : Table → Table) (h : n ∉ a.map (·.name)) :
    updateTable (a ++ b) n f = a ++ updateTable b n f := by
  induction a with
  | nil => rfl
  | cons t a ih =>
    simp only [List.map_cons, List.mem_cons, not_or] at h
    simp only [List.cons_append, updateTable]
    rw [if_neg fun e => h.1 e.symm, ih h.2]

theorem find_append_left {a b : List Table} {n : Str} (h : n ∈ a.map (·.name)) :
    findTableByName (a ++ b) n = findTableByName a n := by
  obtain ⟨t, ht⟩ := find_isSome.2 h
  unfold findTableByName at *
  rw [List.find?_append, ht]; rfl

theorem find_append_right {a b : List Table} {n : Str} (h : n ∉ a.map (·.name)) :
    findTableByName (a ++ b) n = findTableByName b n := by
  have := find_none.2 h
  unfold findTableByName at *
  rw [List.find?_append, this]; rfl

/-- Two lists of tables related element by element, the relation keeping names. -/
theorem forall₂_names {R : Table → Table → Prop} (hR : ∀ x y, R x y → y.name = x.name) {xs ys : List Table}
    (h : List.Forall₂ R xs ys) : ys.map (·.name) = xs.map (·.name) := by
  induction h with
  | nil => rfl
  | cons h _ ih => simp [hR _ _ h, ih]

theorem forall₂_find {R : Table → Table → Prop} (hR : ∀ x y, R x y → y.name = x.name) {xs ys : List Table}
    (h : List.Forall₂ R xs ys) {n : Str} {x : Table} (hx : findTableByName xs n = some x) :
    ∃ y, findTableByName ys n = some y ∧ R x y := by
  induction h with
  | nil => simp [findTableByName] at hx
  | @cons a b as bs hab _ ih =>
    by_cases hn : a.name = n
    · simp [findTableByName, hn] at hx
      subst hx
      exact ⟨b, by simp [findTableByName, hR _ _ hab, hn], hab⟩
    · have hb : b.name ≠ n := by rw [hR _ _ hab]; exact hn
      simp [findTableByName, hn] at hx
      obtain ⟨y, hy, hxy⟩ := ih hx
      exact ⟨y, by simp [findTableByName, hb] at hy ⊢; exact hy, hxy⟩

theorem forall₂_update {R R' : Table → Table → Prop} {f : Table → Table} {n : Str} {xs ys : List Table}
    (hR : ∀ x y, R x y → y.name = x.name)
    (h : List.Forall₂ R xs ys) (hu : (xs.map (·.name)).Nodup)
    (h1 : ∀ x y, x ∈ xs → R x y → x.name = n → R' x (f y)) (h2 : ∀ x y, x ∈ xs → R x y → x.name ≠ n → R' x y) :
    List.Forall₂ R' xs (updateTable ys n f) := by
  induction h with
  | nil => exact .nil
  | @cons a b as bs hab hrest ih =>
    simp only [List.map_cons, List.nodup_cons] at hu
    simp only [updateTable]
    split
    · next hb =>
      have ha : a.name = n := by rw [← hR _ _ hab]; exact hb
      refine .cons (h1 _ _ (by simp) hab ha) ?_
      have hne : ∀ x ∈ as, x.name ≠ n := fun x hx e => hu.1 (by rw [ha, ← e]; exact List.mem_map_of_mem hx)
      clear ih
      have h2' : ∀ x y, x ∈ as → R x y → x.name ≠ n → R' x y := fun x y hx => h2 x y (by simp [hx])
      clear h1 h2 hu
      induction hrest with
      | nil => exact .nil
      | cons hxy _ ih =>
        exact .cons (h2' _ _ (by simp) hxy (hne _ (by simp)))
          (ih (fun x hx => hne x (by simp [hx])) (fun x y hx => h2' x y (by simp [hx])))
    · next hb =>
      have ha : a.name ≠ n := by rw [← hR _ _ hab]; exact hb
      exact .cons (h2 _ _ (by simp) hab ha)
        (ih hu.2 (fun x y hx => h1 x y (by simp [hx])) (fun x y hx => h2 x y (by simp [hx])))

theorem forall₂_mono {R R' : Table → Table → Prop} {xs ys : List Table} (h : List.Forall₂ R xs ys)
    (h' : ∀ x y, x ∈ xs → R x y → R' x y) : List.Forall₂ R' xs ys := by
  induction h with
  | nil => exact .nil
  | cons hxy _ ih => exact .cons (h' _ _ (by simp) hxy) (ih fun x y hx => h' x y (by simp [hx]))

/-! ### `concatMapM` -/

theorem concatMapM_append {α β : Type} (f : α → Except Err (List β)) (a b : List α) :
    concatMapM f (a ++ b) = (do let x ← concatMapM f a; let y ← concatMapM f b; return x ++ y) := by
  induction a with
  | nil =>
    simp only [List.nil_append, concatMapM, bind, Except.bind]
    cases concatMapM f b <;> rfl
  | cons x a ih =>
    simp only [List.cons_append, concatMapM, ih, bind, Except.bind]
    cases f x with
    | error e => rfl
    | ok u =>
      cases concatMapM f a with
      | error e => rfl
      | ok v =>
        cases concatMapM f b with
        | error e => rfl
        | ok w => simp [pure, Except.pure]

theorem concatMapM_congr {α β : Type} (f g : α → Except Err (List β)) (l : List α) (h : ∀ a ∈ l, f a = g a) :
    concatMapM f l = concatMapM g l := by
  induction l with
  | nil => rfl
  | cons a l ih => simp only [concatMapM, h a (by simp), ih fun b hb => h b (by simp [hb])]

/-- The elements of the result come from the elements of the list. -/
theorem mem_concatMapM {α β : Type} {f : α → Except Err (List β)} {l : List α} {r : List β}
    (h : concatMapM f l = .ok r) (b : β) : b ∈ r ↔ ∃ a ∈ l, ∃ x, f a = .ok x ∧ b ∈ x := by
  induction l generalizing r with
  | nil => cases h; simp
  | cons a l ih =>
    simp only [concatMapM, bind, Except.bind] at h
    cases ha : f a with
    | error e => rw [ha] at h; cases h
    | ok x =>
      rw [ha] at h
      cases hl : concatMapM f l with
      | error e => rw [hl] at h; cases h
      | ok y =>
        rw [hl] at h; cases h
        simp only [List.mem_append, ih hl, List.mem_cons, exists_eq_or_imp, ha, Except.ok.injEq, exists_eq_left']

/-- The result is the concatenation of the results of the elements. -/
theorem concatMapM_ok_iff {α β : Type} {f : α → Except Err (List β)} {l : List α} {r : List β} :
    concatMapM f l = .ok r ↔ ∃ rs, List.Forall₂ (fun a x => f a = .ok x) l rs ∧ r = rs.flatten := by
  induction l generalizing r with
  | nil =>
    constructor
    · intro h; cases h; exact ⟨[], .nil, rfl⟩
    · rintro ⟨rs, h, rfl⟩; cases h; rfl
  | cons a l ih =>
    simp only [concatMapM, bind, Except.bind]
    constructor
    · intro h
      cases ha : f a with
      | error e => rw [ha] at h; cases h
      | ok x =>
        rw [ha] at h
        cases hl : concatMapM f l with
        | error e => rw [hl] at h; cases h
        | ok y =>
          rw [hl] at h; cases h
          obtain ⟨rs, hrs, rfl⟩ := ih.1 hl
          exact ⟨x :: rs, .cons ha hrs, rfl⟩
    · rintro ⟨rs, h, rfl⟩
      cases h with
      | cons hx hrs => rw [hx]; simp only; rw [ih.2 ⟨_, hrs, rfl⟩]; rfl

theorem concatMapM_ok_mem {α β : Type} {f : α → Except Err (List β)} {l : List α} {r : List β}
    (h : concatMapM f l = .ok r) (a : α) (ha : a ∈ l) : ∃ x, f a = .ok x ∧ x ⊆ r := by
  induction l generalizing r with
  | nil => simp at ha
  | cons b l ih =>
    simp only [concatMapM, bind, Except.bind] at h
    cases hb : f b with
    | error e => rw [hb] at h; cases h
    | ok x =>
      rw [hb] at h
      cases hl : concatMapM f l with
      | error e => rw [hl] at h; cases h
      | ok y =>
        rw [hl] at h; cases h
        rcases List.mem_cons.1 ha with rfl | ha
        · exact ⟨x, hb, by simp⟩
        · obtain ⟨z, hz, hsub⟩ := ih hl ha
          exact ⟨z, hz, fun w hw => List.mem_append_right _ (hsub hw)⟩

end Sqldef
