import Verif.Spec.Needs
import Verif.Proofs.Removals
/-
Where the statements of a script come from.
-/
namespace Sqldef
open Spec

variable {mode : Mode} {desired current : List DDL} {out x y : List Stmt}

theorem located {α β : Type} {f : α → Except Err (List β)} {st : β} {q : List β} : ∀ {l : List α} {rs : List (List β)} {p : List β},
    List.Forall₂ (fun a x => f a = .ok x) l rs → rs.flatten = p ++ st :: q →
    ∃ A d B la, l = A ++ d :: B ∧ f d = .ok la ∧ st ∈ la ∧ ∀ e ∈ A, ∀ r, f e = .ok r → r ⊆ p
  | _, _, _, .nil, h => by simp at h
  | a :: l, r :: rs, p, .cons h t, e => by
    rw [List.flatten_cons] at e
    rcases List.append_eq_append_iff.mp e with ⟨p', e1, e2⟩ | ⟨p', e1, e2⟩
    · obtain ⟨A, d, B, la, e3, e4, e5, e6⟩ := located t e2
      refine ⟨a :: A, d, B, la, by rw [e3]; rfl, e4, e5, ?_⟩
      intro b hb s hs
      rw [e1]
      rcases List.mem_cons.mp hb with rfl | hb
      · cases h.symm.trans hs
        exact List.subset_append_left _ _
      · exact fun z hz => List.mem_append_right _ (e6 b hb s hs hz)
    · cases p' with
      | nil =>
        rw [List.nil_append] at e2
        obtain ⟨A, d, B, la, e3, e4, e5, e6⟩ := located (p := []) t e2.symm
        refine ⟨a :: A, d, B, la, by rw [e3]; rfl, e4, e5, ?_⟩
        intro b hb s hs
        rw [List.append_nil] at e1
        rcases List.mem_cons.mp hb with rfl | hb
        · cases h.symm.trans hs
          rw [e1]
          exact List.Subset.refl _
        · intro z hz
          exact absurd (e6 b hb s hs hz) (by simp)
      | cons z p' =>
        injection e2 with e2 e3
        exact ⟨[], a, l, r, rfl, h, by rw [e1, e2]; simp, by simp⟩

/-- A statement that is made for one of the file is in the first part of the script. -/
theorem Script.made_first (sc : Script mode desired current out x y) {st : Stmt} {e : DDL} (h : MadeFor st e) :
    st ∉ y ∧ st ∉ cleanupViews (viewsOf desired) (viewsOf current) := by
  constructor
  · intro hs
    obtain ⟨rs, hrs, rfl⟩ := concatMapM_ok_iff.mp sc.clean
    obtain ⟨l, hl, hs⟩ := List.mem_flatten.mp hs
    obtain ⟨t, ht, hdl⟩ := made_from hrs l hl
    unfold tableCleanup at hdl
    split at hdl
    · cases hdl
      rw [List.mem_singleton.1 hs] at h
      cases h
    · have := cleanup_shape hdl st hs
      cases this <;> cases h
  · intro hs
    obtain ⟨v, -, rfl⟩ := List.mem_map.mp hs
    cases h

/-- Such a statement comes from a statement of the file, after what comes from those before. -/
theorem Script.place (sc : Script mode desired current out x y) {st : Stmt} {e : DDL} (h : MadeFor st e) {p q : List Stmt} (ho : out = p ++ st :: q) :
    (∃ A d B la, desired = A ++ d :: B ∧ defStmts mode (tablesOf current) (viewsOf current) (triggersOf current) d = .ok la ∧ st ∈ la ∧
      ∀ a ∈ A, ∀ r, defStmts mode (tablesOf current) (viewsOf current) (triggersOf current) a = .ok r → r ⊆ p) ∧ p ⊆ x := by
  obtain ⟨hy, hz⟩ := sc.made_first h
  have ho' := ho.symm.trans sc.out_eq
  rw [List.append_assoc] at ho'
  rcases List.append_eq_append_iff.mp ho' with ⟨a, e1, e2⟩ | ⟨a, e1, e2⟩
  · cases a with
    | nil =>
      rw [List.nil_append] at e2
      have : st ∈ y ++ cleanupViews (viewsOf desired) (viewsOf current) := by rw [← e2]; simp
      rcases List.mem_append.mp this with h | h
      · exact absurd h hy
      · exact absurd h hz
    | cons b a =>
      injection e2 with e2 e3
      obtain ⟨rs, hrs, e4⟩ := concatMapM_ok_iff.mp sc.defs
      rw [e1, ← e2] at e4
      refine ⟨located hrs e4.symm, ?_⟩
      rw [e1]
      exact List.subset_append_left _ _
  · have : st ∈ y ++ cleanupViews (viewsOf desired) (viewsOf current) := by rw [e2]; simp
    rcases List.mem_append.mp this with h | h
    · exact absurd h hy
    · exact absurd h hz

theorem made_for_this {cur : List Table} {cv : List View} {ct : List Trigger} {d e : DDL} {l : List Stmt} {st : Stmt}
    (h : defStmts mode cur cv ct d = .ok l) (hs : st ∈ l) (hm : MadeFor st e) : MadeFor st d := by
  cases defStmts_shape h hs with
  | create | newIndex | recreateIndex | newPolicy | recreatePolicy | newView => exact .itself _
  | table s t x st hf hts =>
    cases hts with
    | column prev c s h1 hcol =>
      cases hcol with
      | alter cur s h1 h2 h3 =>
        rcases h3 with h3 | h3 | h3 | ⟨_, _, h3⟩ | h3 | ⟨_, _, h3⟩ | h3 | ⟨_, h3⟩ <;> (subst h3; cases hm)
      | _ => cases hm
    | addFk f hf _ => exact .key _ _ _ hf
    | _ => cases hm
  | createView v c _ _ _ => exact .view v
  | replaceView v c _ _ _ => exact .replacedView v
  | newTrigger t _ _ => exact .trigger _ t
  | recreateTrigger t _ _ _ => exact .trigger _ t
  | alterTrigger t _ _ _ => exact .trigger _ t
  | _ => cases hm

/-! ### Views -/

theorem located_exactly {α β : Type} {f : α → Except Err (List β)} {st : β} {q : List β} : ∀ {l : List α} {rs : List (List β)} {p : List β},
    List.Forall₂ (fun a x => f a = .ok x) l rs → rs.flatten = p ++ st :: q →
    ∃ A d B ra p1 q1, l = A ++ d :: B ∧ List.Forall₂ (fun a x => f a = .ok x) A ra ∧ f d = .ok (p1 ++ st :: q1) ∧ p = ra.flatten ++ p1
  | _, _, _, .nil, h => by simp at h
  | a :: l, r :: rs, p, .cons h t, e => by
    rw [List.flatten_cons] at e
    rcases List.append_eq_append_iff.mp e with ⟨p', e1, e2⟩ | ⟨p', e1, e2⟩
    · obtain ⟨A, d, B, ra, p1, q1, e3, e4, e5, e6⟩ := located_exactly t e2
      exact ⟨a :: A, d, B, r :: ra, p1, q1, by rw [e3]; rfl, .cons h e4, e5, by rw [e1, e6]; simp⟩
    · cases p' with
      | nil =>
        rw [List.nil_append] at e2
        obtain ⟨A, d, B, ra, p1, q1, e3, e4, e5, e6⟩ := located_exactly (p := []) t e2.symm
        exact ⟨a :: A, d, B, r :: ra, p1, q1, by rw [e3]; rfl, .cons h e4, e5, by
          rw [List.append_nil] at e1
          rw [List.flatten_cons, List.append_assoc, ← e6, e1, List.append_nil]⟩
      | cons z p' =>
        injection e2 with e2 e3
        subst e2
        exact ⟨[], a, l, [], p, p', rfl, .nil, by rw [h, e1], rfl⟩

theorem keeps_view {n : Str} {cur : List Table} {cv : List View} {ct : List Trigger} {d : DDL} {st : Stmt}
    (h : DefStmt mode cur cv ct d st) (hd : ∀ v, d = .view v → v.name ≠ n) (b : Bool) : afterStmt n b st = b := by
  cases h with
  | newIndex d m i hx => obtain ⟨s, rfl | rfl⟩ := hx <;> rfl
  | recreateIndex d m i c hx => obtain ⟨s, rfl | rfl⟩ := hx <;> rfl
  | table s t x st hf hts =>
    cases hts with
    | column prev c s h1 hcol =>
      cases hcol with
      | alter cur s h1 h2 h3 =>
        rcases h3 with h3 | h3 | h3 | ⟨_, _, h3⟩ | h3 | ⟨_, _, h3⟩ | h3 | ⟨_, h3⟩ <;> (subst h3; rfl)
      | _ => rfl
    | _ => rfl
  | newView v => simp [afterStmt, hd v rfl]
  | createView v => simp [afterStmt, hd v rfl]
  | dropView v => simp [afterStmt, hd v rfl]
  | _ => rfl

theorem keep_view {n : Str} {cur : List Table} {cv : List View} {ct : List Trigger} {d : DDL} (hd : ∀ v, d = .view v → v.name ≠ n) :
    ∀ {l : List Stmt}, (∀ st ∈ l, DefStmt mode cur cv ct d st) → ∀ b, l.foldl (afterStmt n) b = b
  | [], _, _ => rfl
  | st :: l, h, b => by
    rw [List.foldl_cons, keeps_view (h st (by simp)) hd]
    exact keep_view hd (fun s hs => h s (by simp [hs])) b

/-- After the statements for some definitions, the views among them are there. -/
theorem views_there {n : Str} {cur : List Table} {cv : List View} {ct : List Trigger} : ∀ {A : List DDL} {ra : List (List Stmt)} {b : Bool},
    List.Forall₂ (fun a x => defStmts mode cur cv ct a = .ok x) A ra → (n ∈ cv.map (·.name) → b = true) →
    ((n ∈ cv.map (·.name) ∨ n ∈ (viewsOf A).map (·.name) ∨ b = true) → ra.flatten.foldl (afterStmt n) b = true)
  | _, _, b, .nil, hb, h => by
    rcases h with h | h | h
    · exact hb h
    · cases h
    · exact h
  | d :: A, r :: ra, b, .cons h t, hb, hn => by
    rw [List.flatten_cons, List.foldl_append]
    by_cases hd : ∃ v, d = .view v ∧ v.name = n
    · obtain ⟨v, rfl, rfl⟩ := hd
      have hr : r.foldl (afterStmt v.name) b = true := by
        simp only [defStmts, Except.ok.injEq] at h
        subst h
        unfold viewStmts
        split
        · simp [afterStmt]
        · next c hc =>
          have hcv : v.name ∈ cv.map (·.name) := by
            refine List.mem_map.mpr ⟨c, List.mem_of_find?_eq_some hc, ?_⟩
            simpa using List.find?_some hc
          split
          · split
            · simp [afterStmt]
            · simp [afterStmt, hb hcv]
          · simp [hb hcv]
      rw [hr]
      exact views_there t (fun _ => rfl) (.inr (.inr rfl))
    · have hd' : ∀ v, d = .view v → v.name ≠ n := fun v e e2 => hd ⟨v, e, e2⟩
      rw [keep_view hd' fun st hs => defStmts_shape h hs]
      refine views_there t hb ?_
      rcases hn with hn | hn | hn
      · exact .inl hn
      · refine .inr (.inl ?_)
        cases d with
        | view v =>
          rcases List.mem_cons.mp hn with e | hn
          · exact absurd e.symm (hd' v rfl)
          · exact hn
        | _ => exact hn
      · exact .inr (.inr hn)

end Sqldef
