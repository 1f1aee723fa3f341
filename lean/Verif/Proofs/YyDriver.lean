import Verif.Proofs.YyFacts

/-! What a step of the driver does on a well-formed stack. -/
namespace Sqldef.Yy

/-- The states of a stack, top first: each one follows from the one below it. -/
def Linked : List Nat → Prop
  | [] => False
  | [s] => s = 0
  | n :: s :: rest => goesTo s n (rChk n) = true ∧ Linked (s :: rest)

theorem linked_tail {n s : Nat} {rest : List Nat} (h : Linked (n :: s :: rest)) : Linked (s :: rest) := h.2

theorem linked_top {n : Nat} {rest : List Nat} (h : Linked (n :: rest)) : n < 1702 := by
  cases rest with
  | nil => have : n = 0 := h; omega
  | cons s rest => have := (goesTo_iff ..).mp h.1; omega

theorem linked_push {s n x : Nat} {rest : List Nat} (h : Linked (s :: rest)) (hg : goesTo s n x = true) :
    Linked (n :: s :: rest) := by
  refine ⟨?_, h⟩
  have := (goesTo_iff ..).mp hg
  rw [this.2.2.1]
  exact hg

/-- The weight of the symbols on the stack. -/
def stackWeight : List Nat → Nat
  | [] => 0
  | [_] => 0
  | n :: s :: rest => symWeight (rChk n) + stackWeight (s :: rest)

/-- An item on top of the stack says what is on the stack. -/
theorem linked_item {r : Nat} : ∀ {d : Nat} {ks : List Nat}, d ≤ 15 → Linked ks → ∀ {n rest}, ks = n :: rest →
    hasItem n r d = true → ∃ q below, ks.drop d = q :: below ∧ Linked (q :: below) ∧
      hasItem q r 0 = true ∧ (ks.take d).reverse.map rChk = (List.range d).map (rhsAt r) ∧
      stackWeight ks = sumB (fun i => symWeight (rhsAt r i)) d + stackWeight (q :: below)
  | 0, ks, _, hl, n, rest, he, hi => by
    subst he
    exact ⟨n, rest, rfl, hl, hi, rfl, (Nat.zero_add _).symm⟩
  | d + 1, ks, hd, hl, n, rest, he, hi => by
    subst he
    cases rest with
    | nil =>
      have : n = 0 := hl
      subst this
      rw [hasItem_start] at hi
      cases hi
    | cons s rest =>
      have hg := (goesTo_iff ..).mp hl.1
      obtain ⟨hx, hi'⟩ := follows_item hd hg.2.2.2 hi
      obtain ⟨q, below, h1, h2, h3, h4, h5⟩ := linked_item (d := d) (by omega) hl.2 rfl hi'
      refine ⟨q, below, h1, h2, h3, ?_, ?_⟩
      rotate_left
      · show symWeight (rChk n) + stackWeight (s :: rest) =
          sumB (fun i => symWeight (rhsAt r i)) d + symWeight (rhsAt r d) + stackWeight (q :: below)
        rw [hx]; omega
      rw [List.take_succ_cons, List.reverse_cons, List.map_append, h4, List.range_succ, List.map_append]
      show _ ++ [rChk n] = _ ++ [rhsAt r d]
      rw [hx]

/-- The configuration's stack has the states `ks`, and a waiting token is a token. -/
structure Shape {V L : Type} (c : Config V L) (ks : List Nat) : Prop where
  states : c.stack.map (·.1) = ks.map (fun (k : Nat) => (k : Int))
  linked : Linked ks
  token : ∀ t v, c.look = some (t, v) → ∃ k : Nat, t = k ∧ 1 ≤ k ∧ k ≤ 315

/-- The configuration after a token has been looked at, or not. -/
def Looked {V L E : Type} (h : Host V L E) (c c' : Config V L) : Prop :=
  c' = c ∨ ∃ t v, fetch h c = .ok (t, v, c')

/-- What a step may do. -/
inductive Move {V L E : Type} (h : Host V L E) (c : Config V L) (ks : List Nat) :
    Config V L ⊕ Outcome V L E → Prop
  | stopped {e : E} (hf : fetch h c = .error e) : Move h c ks (.inr (.stopped e))
  | shift {t k n : Nat} {v : V} {c' : Config V L} {rest : List Nat} (hk : ks = k :: rest)
      (hf : fetch h c = .ok (t, v, c')) (ht : 3 ≤ t) (hg : goesTo k n (t + 2000) = true) :
      Move h c ks (.inl { c' with stack := (n, v) :: c'.stack, look := none })
  | accept {k : Nat} {v w : V} {c' : Config V L} {rest : List Nat} {more : List (Int × V)} (hk : ks = k :: rest)
      (hs : c.stack = ((k : Int), v) :: more)
      (hf : fetch h c = .ok (1, w, c')) (hi : hasItem k 0 1 = true) :
      Move h c ks (.inr (.accepted v c'.lexer))
  | reject {c' : Config V L} (hl : Looked h c c') : Move h c ks (.inr (.rejected c'.lexer))
  | reduce {k r : Nat} {c' : Config V L} {rest : List Nat} (hk : ks = k :: rest) (hl : Looked h c c')
      (hr : completeIn k r = true) : Move h c ks (reduce h c' r)

theorem fetch_spec {V L E : Type} {h : Host V L E} {c c' : Config V L} {t : Int} {v : V}
    (hf : fetch h c = .ok (t, v, c')) : c'.stack = c.stack ∧ c'.look = some (t, v) ∧
      (c' = c ∨ c.look = none ∧ ∃ char l, h.lex c.lexer = .ok (char, v, l) ∧ t = tokenOf char ∧ c'.lexer = l) := by
  unfold fetch at hf
  cases hl : c.look with
  | some p =>
    obtain ⟨t', v'⟩ := p
    rw [hl] at hf
    simp only [Except.ok.injEq, Prod.mk.injEq] at hf
    obtain ⟨rfl, rfl, rfl⟩ := hf
    exact ⟨rfl, hl, .inl rfl⟩
  | none =>
    rw [hl] at hf
    cases hx : h.lex c.lexer with
    | error e => rw [hx] at hf; cases hf
    | ok p =>
      obtain ⟨char, v', l⟩ := p
      rw [hx] at hf
      simp only [Except.ok.injEq, Prod.mk.injEq] at hf
      obtain ⟨rfl, rfl, rfl⟩ := hf
      exact ⟨rfl, rfl, .inr ⟨rfl, char, l, rfl, rfl, rfl⟩⟩

theorem fetch_shape {V L E : Type} {h : Host V L E} {c c' : Config V L} {t : Int} {v : V} {ks : List Nat}
    (hs : Shape c ks) (hf : fetch h c = .ok (t, v, c')) :
    Shape c' ks ∧ ∃ k : Nat, t = k ∧ 1 ≤ k ∧ k ≤ 315 := by
  obtain ⟨h1, h2, h3⟩ := fetch_spec hf
  have ht : ∃ k : Nat, t = k ∧ 1 ≤ k ∧ k ≤ 315 := by
    rcases h3 with h3 | ⟨_, char, l, _, h3, _⟩
    · subst h3; exact hs.token t v h2
    · rw [h3]; exact tokenOf_range char
  refine ⟨⟨by rw [h1]; exact hs.states, hs.linked, ?_⟩, ht⟩
  intro t' v' hl
  rw [h2] at hl
  simp only [Option.some.injEq, Prod.mk.injEq] at hl
  rw [← hl.1]
  exact ht

theorem looked_shape {V L E : Type} {h : Host V L E} {c c' : Config V L} {ks : List Nat}
    (hs : Shape c ks) (hl : Looked h c c') : Shape c' ks := by
  rcases hl with hl | ⟨t, v, hl⟩
  · subst hl; exact hs
  · exact (fetch_shape hs hl).1

/-- No state on a stack can take `error`. -/
theorem resumable_false : ∀ {ks : List Nat}, (∀ k ∈ ks, k < 1702) →
    resumable (ks.map (fun (k : Nat) => (k : Int))) = some false
  | [], _ => rfl
  | k :: ks, h => by
    have hk : k < 1702 := h k List.mem_cons_self
    have ih := resumable_false (ks := ks) (fun x hx => h x (List.mem_cons_of_mem _ hx))
    rw [List.map_cons]
    unfold resumable
    rw [pact_at hk]
    simp only [Option.bind_eq_bind, Option.bind_some]
    by_cases hp : (rPact k : Int) - 2000 ≤ yyFlag
    · rw [if_pos (.inl (by unfold yyFlag at hp; omega))]
      exact ih
    · obtain ⟨o, ho, hc⟩ := shift_fact (t := 2) hk (by omega) (by omega) hp
      rcases hc with hc | ⟨n, _, h3, _⟩
      · subst hc
        unfold shiftTo at ho
        simp only [] at ho
        by_cases hr : (rPact k : Int) - 2000 + 2 < 0 ∨ (rPact k : Int) - 2000 + 2 ≥ yyLast
        · rw [if_pos hr]; exact ih
        · rw [if_neg hr]
          rw [if_neg (by simpa using hr)] at ho
          simp only [Option.bind_eq_bind] at ho
          have e2 : ((2 : Nat) : Int) = 2 := rfl
          rw [e2] at ho
          cases ha : yyAct.at ((rPact k : Int) - 2000 + 2) with
          | none => rw [ha] at ho; simp at ho
          | some a =>
            rw [ha] at ho
            simp only [Option.bind_some] at ho ⊢
            cases hc : yyChk.at a with
            | none => rw [hc] at ho; simp at ho
            | some x =>
              rw [hc] at ho
              simp only [Option.bind_some] at ho ⊢
              split
              · rename_i hx; rw [if_pos hx] at ho; simp at ho
              · exact ih
      · omega

theorem linked_all : ∀ {ks : List Nat}, Linked ks → ∀ k ∈ ks, k < 1702
  | [], h => by cases h
  | [s], h => by
    intro k hk
    have : s = 0 := h
    rw [List.mem_singleton] at hk
    omega
  | n :: s :: rest, h => by
    intro k hk
    rcases List.mem_cons.mp hk with hk | hk
    · rw [hk]; exact linked_top h
    · exact linked_all h.2 k hk

theorem syntaxError_shape {V L E : Type} {c : Config V L} {ks : List Nat} (hs : Shape c ks) :
    (syntaxError c : Outcome V L E) = .rejected c.lexer := by
  unfold syntaxError
  rw [hs.states, resumable_false (linked_all hs.linked)]

theorem yydefault_move {V L E : Type} {h : Host V L E} {c c1 : Config V L} {k : Nat} {rest : List Nat} {v : V}
    {more : List (Int × V)} (hs : Shape c (k :: rest)) (hst : c.stack = ((k : Int), v) :: more)
    (hl : Looked h c c1) : Move h c (k :: rest) (yydefault h c1 k v) := by
  have hs1 := looked_shape hs hl
  have hk : k < 1702 := linked_top hs.linked
  obtain ⟨d, hd, hcase⟩ := def_fact hk
  unfold yydefault
  rw [hd]
  simp only []
  have perf : ∀ {c2 : Config V L} {r : Int}, Looked h c c2 →
      (r = 0 ∨ ∃ j : Nat, r = j ∧ completeIn k j = true) → Move h c (k :: rest) (perform h c2 r) := by
    intro c2 r hl2 hr
    unfold perform
    by_cases hz : r = 0
    · rw [if_pos hz, syntaxError_shape (looked_shape hs hl2)]
      exact .reject hl2
    · rw [if_neg hz]
      rcases hr with hr | ⟨j, rfl, hj⟩
      · exact absurd hr hz
      · exact .reduce rfl hl2 hj
  rcases hcase with ⟨hm, hall⟩ | ⟨hm, hc⟩
  · rw [if_pos hm]
    -- looking again gives the same token
    have again : ∀ t w c2, fetch h c1 = .ok (t, w, c2) → ∃ t' w', fetch h c = .ok (t', w', c2) ∧ t' = t := by
      intro t w c2 h2
      rcases hl with hl | ⟨t', w', hl⟩
      · subst hl; exact ⟨t, w, h2, rfl⟩
      · obtain ⟨_, h3, _⟩ := fetch_spec hl
        unfold fetch at h2
        rw [h3] at h2
        simp only [Except.ok.injEq, Prod.mk.injEq] at h2
        obtain ⟨rfl, rfl, rfl⟩ := h2
        exact ⟨_, _, hl, rfl⟩
    cases hf : fetch h c1 with
    | error e =>
      simp only []
      rcases hl with hl | ⟨t', w', hl⟩
      · subst hl; exact .stopped hf
      · obtain ⟨_, h3, _⟩ := fetch_spec hl
        unfold fetch at hf
        rw [h3] at hf
        cases hf
    | ok p =>
      obtain ⟨t, w, c2⟩ := p
      simp only []
      obtain ⟨r, hr, hrc⟩ := hall t
      rw [hr]
      simp only []
      obtain ⟨t', w', hf', ht'⟩ := again t w c2 hf
      by_cases hneg : r < 0
      · rw [if_pos hneg]
        rcases hrc with ⟨_, h1, hi⟩ | h0 | ⟨j, hj, _⟩
        · subst ht'; subst h1
          exact .accept rfl hst hf' hi
        · omega
        · omega
      · rw [if_neg hneg]
        refine perf (.inr ⟨t', w', hf'⟩) ?_
        rcases hrc with ⟨h1, _⟩ | hrc
        · exact absurd h1 hneg
        · exact hrc
  · rw [if_neg hm]
    exact perf hl hc

/-- Every step on a well-formed stack is one of the moves. -/
theorem step_move {V L E : Type} {h : Host V L E} {c : Config V L} {ks : List Nat} (hs : Shape c ks) :
    Move h c ks (step h c) := by
  obtain ⟨stack, look, lexer⟩ := c
  cases ks with
  | nil => exact absurd hs.linked (by simp [Linked])
  | cons k rest =>
    have hst := hs.states
    cases stack with
    | nil => simp at hst
    | cons e more =>
      obtain ⟨s, v⟩ := e
      simp only [List.map_cons, List.cons.injEq] at hst
      obtain ⟨rfl, hmore⟩ := hst
      have hk : k < 1702 := linked_top hs.linked
      unfold step
      simp only []
      rw [pact_at hk]
      simp only []
      by_cases hp : (rPact k : Int) - 2000 ≤ yyFlag
      · rw [if_pos hp]
        exact yydefault_move hs rfl (.inl rfl)
      · rw [if_neg hp]
        cases hf : fetch h (⟨((k : Int), v) :: more, look, lexer⟩ : Config V L) with
        | error e => exact .stopped hf
        | ok p =>
          obtain ⟨t, w, c1⟩ := p
          simp only []
          obtain ⟨_, j, rfl, hj1, hj2⟩ := fetch_shape hs hf
          obtain ⟨o, ho, hcase⟩ := shift_fact hk hj1 hj2 hp
          rw [ho]
          rcases hcase with rfl | ⟨n, rfl, h3, hg⟩
          · exact yydefault_move hs rfl (.inr ⟨_, _, hf⟩)
          · exact .shift rfl hf h3 hg

/-- What a reduction does on a well-formed stack. -/
theorem reduce_move {V L E : Type} (h : Host V L E) {c : Config V L} {k r : Nat} {rest : List Nat}
    (hs : Shape c (k :: rest)) (hr : completeIn k r = true) :
    ∃ (q n : Nat) (below : List Nat) (qv : V) (more : List (Int × V)),
      1 ≤ r ∧ r < 999 ∧
      (k :: rest).drop (rLen r - 2000) = q :: below ∧ Linked (q :: below) ∧
      goesTo q n (2000 - (rLhs r - 2000)) = true ∧
      ((k :: rest).take (rLen r - 2000)).reverse.map rChk = (List.range (rLen r - 2000)).map (rhsAt r) ∧
      c.stack.drop (rLen r - 2000) = ((q : Int), qv) :: more ∧
      stackWeight (n :: q :: below) + height n + 1 ≤ stackWeight (k :: rest) + height k ∧
      reduce h c (r : Int) =
        (match h.act r ((c.stack.take (rLen r - 2000)).reverse.map (·.2)) c.lexer with
        | .ok (w, l) => .inl { c with stack := ((n : Int), w) :: ((q : Int), qv) :: more, lexer := l }
        | .error (.inl e) => .inr (.stopped e)
        | .error (.inr l) => .inr (.rejected l)) := by
  obtain ⟨hr1, hr2, hi⟩ := (completeIn_iff ..).mp hr
  obtain ⟨f1, f2, f3, f4, _, f6, f7⟩ := rule_fact hr1 (show r < 999 by omega)
  obtain ⟨q, below, h1, h2, h3, h4, h5⟩ := linked_item (r := r) (d := rLen r - 2000) (by omega) hs.linked rfl hi
  have hq : q < 1702 := linked_top h2
  rw [hasItem_zero] at h3
  obtain ⟨n, hg, hgo, hemp⟩ := goto_fact (a := rLhs r - 2000) hq (by omega) (by omega) h3
  have hgi := (goesTo_iff ..).mp hgo
  have hdrop : (c.stack.drop (rLen r - 2000)).map (·.1) = (q :: below).map (fun (k : Nat) => (k : Int)) := by
    rw [List.map_drop, hs.states, ← List.map_drop, h1]
  cases hcs : c.stack.drop (rLen r - 2000) with
  | nil => rw [hcs] at hdrop; simp at hdrop
  | cons e more =>
    obtain ⟨qs, qv⟩ := e
    rw [hcs] at hdrop
    simp only [List.map_cons, List.cons.injEq] at hdrop
    obtain ⟨rfl, _⟩ := hdrop
    refine ⟨q, n, below, qv, more, hr1, by omega, h1, h2, hgo, h4, rfl, ?_, ?_⟩
    · have hw : stackWeight (n :: q :: below) = symWeight (rChk n) + stackWeight (q :: below) := rfl
      have hsw : symWeight (rChk n) = weight (rLhs r - 2000) := by
        rw [hgi.2.2.1]
        have e : symWeight (2000 - (rLhs r - 2000)) =
          cond (Nat.ble 2001 (2000 - (rLhs r - 2000))) certTerminal (weight (2000 - (2000 - (rLhs r - 2000)))) := rfl
        have hb : Nat.ble 2001 (2000 - (rLhs r - 2000)) = false := by
          cases hb : Nat.ble 2001 (2000 - (rLhs r - 2000)) with
          | false => rfl
          | true => rw [Nat.ble_eq] at hb; omega
        rw [e, hb, cond_false, show 2000 - (2000 - (rLhs r - 2000)) = rLhs r - 2000 by omega]
      by_cases hz : rLen r = 2000
      · have := hemp (f6 hz)
        rw [show rLen r - 2000 = 0 by omega] at h1
        simp only [List.drop_zero, List.cons.injEq] at h1
        obtain ⟨rfl, rfl⟩ := h1
        omega
      · have := f7 hz
        have ht := (height_fact hgi.1 (show n < 1702 by omega)).2 (by omega)
        rw [hgi.2.2.1, show 2000 - (2000 - (rLhs r - 2000)) = rLhs r - 2000 by omega] at ht
        omega
    · unfold reduce
      rw [r1_at (show r < 999 by omega), r2_at (show r < 999 by omega)]
      simp only []
      have e1 : ((rLen r : Int) - 2000).toNat = rLen r - 2000 := by omega
      have e2 : (rLhs r : Int) - 2000 = ((rLhs r - 2000 : Nat) : Int) := by omega
      rw [e1, e2, hcs]
      simp only []
      rw [hg]
      simp only [Int.toNat_natCast]
      rcases h.act r _ c.lexer with (e | l) | ⟨w, l⟩ <;> rfl

end Sqldef.Yy
