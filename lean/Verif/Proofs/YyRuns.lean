import Verif.Proofs.YyDriver
import Verif.Spec.Parsing

/-! Runs of the parser: they stay well-formed, they end, and they build derivations. -/
namespace Sqldef.Yy
open Spec

theorem shape_start {V L : Type} (z : V) (l : L) : Shape (start z l) [0] :=
  ⟨rfl, rfl, fun _ _ h => by cases h⟩

theorem shape_shift {V L E : Type} {h : Host V L E} {c c' : Config V L} {t : Int} {v : V} {k n x : Nat}
    {rest : List Nat} (hs : Shape c (k :: rest)) (hf : fetch h c = .ok (t, v, c'))
    (hg : goesTo k n x = true) :
    Shape { c' with stack := ((n : Int), v) :: c'.stack, look := none } (n :: k :: rest) := by
  refine ⟨?_, linked_push hs.linked hg, fun _ _ h => by cases h⟩
  have := (fetch_spec hf).1
  simp only [List.map_cons, this, hs.states]

/-- The shape after a step. -/
theorem step_shape {V L E : Type} {h : Host V L E} {c c' : Config V L} {ks : List Nat} (hs : Shape c ks)
    (he : step h c = .inl c') : ∃ ks', Shape c' ks' := by
  have hm := step_move (h := h) hs
  generalize step h c = res at hm he
  cases hm with
  | stopped => cases he
  | accept => cases he
  | reject => cases he
  | shift hk hf ht hg =>
    subst hk
    simp only [Sum.inl.injEq] at he
    subst he
    exact ⟨_, shape_shift hs hf hg⟩
  | reduce hk hl hr =>
    subst hk
    have hs1 := looked_shape hs hl
    obtain ⟨q, n, below, qv, more, _, _, h1, h2, h3, _, h5, _, h7⟩ := reduce_move h hs1 hr
    rw [h7] at he
    split at he
    · simp only [Sum.inl.injEq] at he
      subst he
      refine ⟨n :: q :: below, ?_, linked_push h2 h3, hs1.token⟩
      have := congrArg (List.map (·.1)) h5
      rw [List.map_drop, hs1.states, ← List.map_drop, h1] at this
      simp only [List.map_cons, List.cons.injEq] at this ⊢
      exact ⟨trivial, trivial, this.2.symm⟩
    · cases he
    · cases he

theorem step_safe {V L E : Type} {h : Host V L E} {c : Config V L} {ks : List Nat} {o : Outcome V L E}
    (hs : Shape c ks) (he : step h c = .inr o) : o ≠ .fault ∧ o ≠ .resumes := by
  have hm := step_move (h := h) hs
  generalize step h c = res at hm he
  cases hm with
  | stopped => simp only [Sum.inr.injEq] at he; subst he; simp
  | accept => simp only [Sum.inr.injEq] at he; subst he; simp
  | reject => simp only [Sum.inr.injEq] at he; subst he; simp
  | shift => cases he
  | reduce hk hl hr =>
    subst hk
    obtain ⟨q, n, below, qv, more, _, _, _, _, _, _, _, _, h7⟩ := reduce_move h (looked_shape hs hl) hr
    rw [h7] at he
    split at he
    · cases he
    · simp only [Sum.inr.injEq] at he; subst he; simp
    · simp only [Sum.inr.injEq] at he; subst he; simp

theorem run_safe {V L E : Type} {h : Host V L E} : ∀ (n : Nat) {c : Config V L} {ks : List Nat} {o : Outcome V L E},
    Shape c ks → run h n c = some o → o ≠ .fault ∧ o ≠ .resumes
  | 0, _, _, _, _, hr => by cases hr
  | n + 1, c, ks, o, hs, hr => by
    unfold run at hr
    cases he : step h c with
    | inl c' =>
      rw [he] at hr
      obtain ⟨ks', hs'⟩ := step_shape hs he
      exact run_safe n hs' hr
    | inr o' =>
      rw [he] at hr
      simp only [Option.some.injEq] at hr
      subst hr
      exact step_safe hs he

/-! ### Termination -/

/-- 1 if a token other than the end is waiting. -/
def pending {V L : Type} (c : Config V L) : Nat :=
  match c.look with
  | none => 0
  | some (t, _) => if t = 1 then 0 else 1

/-- What is left to do. -/
def work {V L : Type} (size : L → Nat) (c : Config V L) (ks : List Nat) : Nat :=
  23 * (size c.lexer + pending c) + (stackWeight ks + height (ks.headD 0))

theorem fetch_work {V L E : Type} {h : Host V L E} {size : L → Nat} (hsz : Shrinks h size)
    {c c' : Config V L} {t : Int} {v : V} (hf : fetch h c = .ok (t, v, c')) :
    size c'.lexer + pending c' ≤ size c.lexer + pending c := by
  obtain ⟨_, h2, h3⟩ := fetch_spec hf
  rcases h3 with h3 | ⟨hn, char, l, hl, ht, hl'⟩
  · subst h3; exact Nat.le_refl _
  · have hp : pending c' = if t = 1 then 0 else 1 := by unfold pending; rw [h2]
    have hp0 : pending c = 0 := by unfold pending; rw [hn]
    rw [hp, hp0, hl']
    by_cases h1 : t = 1
    · rw [if_pos h1]
      have := hsz.finish _ _ _ _ hl
      omega
    · rw [if_neg h1]
      have : 0 < char := by
        rcases Int.lt_or_le 0 char with h | h
        · exact h
        · exact absurd (ht.trans (tokenOf_end h)) h1
      have := hsz.token _ _ _ _ hl this
      omega

theorem looked_work {V L E : Type} {h : Host V L E} {size : L → Nat} (hsz : Shrinks h size)
    {c c' : Config V L} (hl : Looked h c c') :
    size c'.lexer + pending c' ≤ size c.lexer + pending c := by
  rcases hl with hl | ⟨t, v, hl⟩
  · subst hl; exact Nat.le_refl _
  · exact fetch_work hsz hl

/-- A step leaves less to do. -/
theorem step_work {V L E : Type} {h : Host V L E} {size : L → Nat} (hsz : Shrinks h size)
    {c c' : Config V L} {ks : List Nat} (hs : Shape c ks) (he : step h c = .inl c') :
    ∃ ks', Shape c' ks' ∧ work size c' ks' < work size c ks := by
  have hm := step_move (h := h) hs
  generalize step h c = res at hm he
  cases hm with
  | stopped => cases he
  | accept => cases he
  | reject => cases he
  | @shift t k n v c1 rest hk hf ht hg =>
    subst hk
    simp only [Sum.inl.injEq] at he
    subst he
    refine ⟨_, shape_shift hs hf hg, ?_⟩
    have hw := fetch_work hsz hf
    have hp : pending c1 = 1 := by
      unfold pending
      rw [(fetch_spec hf).2.1]
      simp only []
      rw [if_neg (by omega)]
    have hgi := (goesTo_iff ..).mp hg
    have hh := (height_fact hgi.1 (show n < 1702 by omega)).1
    have e : symWeight (rChk n) = 16 := by
      rw [hgi.2.2.1]
      have e : symWeight (t + 2000) = cond (Nat.ble 2001 (t + 2000)) 16 (weight (2000 - (t + 2000))) := rfl
      rw [e, Nat.ble_eq.mpr (by omega), cond_true]
    simp only [work, stackWeight, List.headD_cons, e]
    have : pending ({ c1 with stack := ((n : Int), v) :: c1.stack, look := none } : Config V L) = 0 := rfl
    rw [this]
    omega
  | @reduce k r c1 rest hk hl hr =>
    subst hk
    have hs1 := looked_shape hs hl
    have hw := looked_work hsz hl
    obtain ⟨q, n, below, qv, more, _, _, h1, h2, h3, _, h5, h6, h7⟩ := reduce_move h hs1 hr
    rw [h7] at he
    split at he
    · rename_i w l ha
      simp only [Sum.inl.injEq] at he
      subst he
      refine ⟨n :: q :: below, ⟨?_, linked_push h2 h3, hs1.token⟩, ?_⟩
      · have := congrArg (List.map (·.1)) h5
        rw [List.map_drop, hs1.states, ← List.map_drop, h1] at this
        simp only [List.map_cons, List.cons.injEq] at this ⊢
        exact ⟨trivial, trivial, this.2.symm⟩
      · have ha' := hsz.action _ _ _ _ _ ha
        have hp : pending ({ c1 with stack := ((n : Int), w) :: ((q : Int), qv) :: more, lexer := l } : Config V L) =
          pending c1 := rfl
        simp only [work, hp, List.headD_cons]
        omega
    · cases he
    · cases he

/-- A run that has enough fuel ends. -/
theorem run_ends {V L E : Type} {h : Host V L E} {size : L → Nat} (hsz : Shrinks h size) :
    ∀ (n : Nat) {c : Config V L} {ks : List Nat}, Shape c ks → work size c ks < n → ∃ o, run h n c = some o
  | 0, _, _, _, hn => by omega
  | n + 1, c, ks, hs, hn => by
    unfold run
    cases he : step h c with
    | inl c' =>
      obtain ⟨ks', hs', hw⟩ := step_work hsz hs he
      exact run_ends hsz n hs' (by omega)
    | inr o => exact ⟨o, rfl⟩

theorem run_start {V L E : Type} {h : Host V L E} {size : L → Nat} (hsz : Shrinks h size) (z : V) (l : L) :
    ∃ o, run h (23 * size l + 7) (start z l) = some o := by
  refine run_ends hsz _ (shape_start z l) ?_
  have := height_zero
  have e : work size (start z l : Config V L) [0] = 23 * (size l + 0) + (0 + height 0) := rfl
  rw [e]
  omega

/-- More fuel does not change the outcome. -/
theorem run_more {V L E : Type} {h : Host V L E} : ∀ {n m : Nat} {c : Config V L} {o : Outcome V L E},
    n ≤ m → run h n c = some o → run h m c = some o
  | 0, _, _, _, _, hr => by cases hr
  | n + 1, 0, _, _, hm, _ => by omega
  | n + 1, m + 1, c, o, hm, hr => by
    unfold run at hr ⊢
    cases he : step h c with
    | inl c' => rw [he] at hr; exact run_more (by omega) hr
    | inr o' => rw [he] at hr; exact hr

end Sqldef.Yy
