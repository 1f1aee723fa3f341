import Verif.Proofs.YyShifts
import Verif.Proofs.YyGotos

/-! What the checks say, in terms of the driver of Model/Yy.lean. -/
namespace Sqldef.Yy

theorem condF_iff (a b : Bool) : cond a b false = true ↔ a = true ∧ b = true := by
  cases a <;> cases b <;> simp

theorem goesTo_iff (s n x : Nat) : goesTo s n x = true ↔
    1 ≤ n ∧ n ≤ 1701 ∧ rChk n = x ∧ follows s n x = true := by
  have e : goesTo s n x = cond (Nat.ble 1 n) (cond (Nat.ble n 1701) (cond (Nat.beq (rChk n) x)
    (follows s n x) false) false) false := rfl
  rw [e, condF_iff, condF_iff, condF_iff, Nat.ble_eq, Nat.ble_eq, Nat.beq_eq]

theorem completeIn_iff (s r : Nat) : completeIn s r = true ↔
    1 ≤ r ∧ r ≤ 998 ∧ hasItem s r (rLen r - 2000) = true := by
  have e : completeIn s r = andB (Nat.ble 1 r) (andB (Nat.ble r 998) (hasItem s r (rLen r - 2000))) := rfl
  rw [e, andB_iff, andB_iff, Nat.ble_eq, Nat.ble_eq]

/-! ### Table lookups -/

theorem at_nat (t : Table) {i : Nat} (h : i < t.size) :
    t.at (i : Int) = some ((entry t.bits t.size i : Int) - 2000) := by
  unfold Table.at
  rw [if_pos ⟨by omega, by omega⟩, Int.toNat_natCast]

theorem pact_at {s : Nat} (h : s < 1702) : yyPact.at (s : Int) = some ((rPact s : Int) - 2000) := by
  exact at_nat yyPact h

theorem chk_at {s : Nat} (h : s < 1702) : yyChk.at (s : Int) = some ((rChk s : Int) - 2000) := by
  exact at_nat yyChk h

theorem def_at {s : Nat} (h : s < 1702) : yyDef.at (s : Int) = some ((rDef s : Int) - 2000) := by
  exact at_nat yyDef h

theorem act_at {i : Nat} (h : i < 14695) :
    ∃ n : Nat, yyAct.at (i : Int) = some (n : Int) ∧ n = rAct i - 2000 ∧ n < 1702 := by
  have hr := act_range h
  refine ⟨rAct i - 2000, ?_, rfl, by omega⟩
  rw [at_nat yyAct h]
  show some ((rAct i : Int) - 2000) = _
  congr 1
  omega

theorem pgo_at {a : Nat} (h : a < 214) :
    ∃ g : Nat, yyPgo.at (a : Int) = some (g : Int) ∧ g = rPgo a - 2000 ∧ g ≤ 2000 := by
  have hr := pgo_range h
  refine ⟨rPgo a - 2000, ?_, rfl, by omega⟩
  rw [at_nat yyPgo h]
  show some ((rPgo a : Int) - 2000) = _
  congr 1
  omega

theorem r1_at {r : Nat} (h : r < 999) : yyR1.at (r : Int) = some ((rLhs r : Int) - 2000) := by
  exact at_nat yyR1 h

theorem r2_at {r : Nat} (h : r < 999) : yyR2.at (r : Int) = some ((rLen r : Int) - 2000) := by
  exact at_nat yyR2 h

/-! ### Tokens -/

theorem tok1_range : ∀ x ∈ yyTok1, x ≤ 315 := by decide +kernel
theorem tok2_range : ∀ x ∈ yyTok2, x ≤ 315 := by decide +kernel
theorem tok3_range : ∀ x ∈ yyTok3, x.2 ≤ 315 := by decide +kernel

theorem getD_range {l : List Nat} (h : ∀ x ∈ l, x ≤ 315) (i : Nat) : l.getD i 0 ≤ 315 := by
  rw [List.getD_eq_getElem?_getD]
  cases hi : l[i]? with
  | none => simp
  | some x => exact h x (List.mem_of_getElem? hi)

/-- Every character code has a token. -/
theorem tokenOf_range (char : Int) : ∃ t : Nat, tokenOf char = t ∧ 1 ≤ t ∧ t ≤ 315 := by
  have key : ∀ f : Nat, f ≤ 315 →
      ∃ t : Nat, (if f = 0 then ((yyTok2.getD 1 0 : Nat) : Int) else (f : Int)) = t ∧ 1 ≤ t ∧ t ≤ 315 := by
    intro f hf
    by_cases hz : f = 0
    · rw [if_pos hz]; exact ⟨3, rfl, by omega, by omega⟩
    · rw [if_neg hz]; exact ⟨f, rfl, by omega, hf⟩
  unfold tokenOf
  refine key _ ?_
  split
  · exact getD_range tok1_range _
  · split
    · exact getD_range tok1_range _
    · split
      · exact getD_range tok2_range _
      · split
        · rename_i p hp
          exact tok3_range _ (List.mem_of_find?_eq_some hp)
        · omega

theorem tokenOf_end {char : Int} (h : char ≤ 0) : tokenOf char = 1 := by
  unfold tokenOf
  rw [if_pos h]
  rfl

/-! ### Shifts -/

theorem shiftTo_raw {p t : Nat} : ∃ o, shiftTo ((p : Int) - 2000) (t : Int) = some o ∧
    (o = none ∨ ∃ n : Nat, o = some (n : Int) ∧ rShift p t = n + 1) := by
  unfold shiftTo
  simp only []
  by_cases hr : (p : Int) - 2000 + t < 0 ∨ (p : Int) - 2000 + t ≥ yyLast
  · rw [if_pos hr]; exact ⟨none, rfl, .inl rfl⟩
  · rw [if_neg hr]
    unfold yyLast at hr
    have h1 : 2000 ≤ p + t := by omega
    have h2 : p + t ≤ 16694 := by omega
    have e : (p : Int) - 2000 + t = ((p + t - 2000 : Nat) : Int) := by omega
    rw [e]
    obtain ⟨n, hn, hn', hlt⟩ := act_at (i := p + t - 2000) (by omega)
    rw [hn]
    simp only [Option.bind_eq_bind, Option.bind_some]
    rw [chk_at hlt]
    simp only [Option.bind_some]
    have raw : rShift p t = cond (Nat.ble 2000 (p + t)) (cond (Nat.ble (p + t) 16694)
      (cond (Nat.beq (rChk (rAct (p + t - 2000) - 2000)) (t + 2000))
        (rAct (p + t - 2000) - 2000 + 1) 0) 0) 0 := rfl
    split
    · rename_i hc
      refine ⟨_, rfl, .inr ⟨n, rfl, ?_⟩⟩
      rw [raw, Nat.ble_eq.mpr h1, Nat.ble_eq.mpr h2, cond_true, cond_true, ← hn',
        show rChk n = t + 2000 by omega, Nat.beq_refl, cond_true]
    · exact ⟨_, rfl, .inl rfl⟩

/-- What a state shifts. -/
theorem shift_fact {s t : Nat} (hs : s < 1702) (ht1 : 1 ≤ t) (ht : t ≤ 315)
    (hp : ¬ ((rPact s : Int) - 2000 ≤ yyFlag)) :
    ∃ o, shiftTo ((rPact s : Int) - 2000) (t : Int) = some o ∧
      (o = none ∨ ∃ n : Nat, o = some (n : Int) ∧ 3 ≤ t ∧ goesTo s n (t + 2000) = true) := by
  obtain ⟨o, ho, h⟩ := shiftTo_raw (p := rPact s) (t := t)
  refine ⟨o, ho, ?_⟩
  rcases h with h | ⟨n, hn, hraw⟩
  · exact .inl h
  · refine .inr ⟨n, hn, ?_⟩
    have hk := shiftsOk_all hs
    have e : shiftsOk s = cond (Nat.ble (rPact s) 1000) true
        (andB (Nat.beq (rShift (rPact s) 1) 0) (andB (Nat.beq (rShift (rPact s) 2) 0)
          (allFrom 3 313 (fun t => cond (Nat.beq (rShift (rPact s) t) 0) true
            (goesTo s (Nat.pred (rShift (rPact s) t)) (t + 2000)))))) := rfl
    rw [e] at hk
    unfold yyFlag at hp
    have hb : Nat.ble (rPact s) 1000 = false := by
      cases hb : Nat.ble (rPact s) 1000 with
      | false => rfl
      | true => rw [Nat.ble_eq] at hb; omega
    rw [hb, cond_false, andB_iff, andB_iff, Nat.beq_eq, Nat.beq_eq, allFrom_iff] at hk
    obtain ⟨k1, k2, k3⟩ := hk
    have h3 : 3 ≤ t := by
      rcases Nat.lt_or_ge t 3 with h | h
      · have : t = 1 ∨ t = 2 := by omega
        rcases this with h | h <;> subst h <;> omega
      · exact h
    have := k3 t h3 (by omega)
    simp only [hraw] at this
    have z : Nat.beq (n + 1) 0 = false := rfl
    rw [z, cond_false] at this
    exact ⟨h3, this⟩

/-! ### Gotos -/

theorem goto_raw {s a : Nat} (hs : s < 1702) (ha : a < 214) :
    gotoState (s : Int) (a : Int) = some ((rGoto s a : Nat) : Int) := by
  obtain ⟨g, hg, hg', hgl⟩ := pgo_at ha
  unfold gotoState
  rw [hg]
  simp only [Option.bind_eq_bind, Option.bind_some]
  rw [if_neg (by unfold yyLast; omega)]
  have e : (g : Int) + s + 1 = ((g + s + 1 : Nat) : Int) := by omega
  rw [e]
  obtain ⟨n, hn, hn', hlt⟩ := act_at (i := g + s + 1) (by omega)
  rw [hn]
  simp only [Option.bind_some]
  rw [chk_at hlt]
  simp only [Option.bind_some]
  have raw : rGoto s a = cond (Nat.beq (rChk (rAct ((rPgo a - 2000) + s + 1) - 2000)) (2000 - a))
    (rAct ((rPgo a - 2000) + s + 1) - 2000) (rAct (rPgo a - 2000) - 2000) := rfl
  rw [← hg', ← hn'] at raw
  obtain ⟨m, hm, hm', _⟩ := act_at (i := g) (by omega)
  rw [← hm'] at raw
  by_cases hc : rChk n = 2000 - a
  · rw [if_neg (by omega), raw, hc, Nat.beq_refl, cond_true]
  · have hb : Nat.beq (rChk n) (2000 - a) = false := by
      cases hb : Nat.beq (rChk n) (2000 - a) with
      | false => rfl
      | true => exact absurd (Nat.beq_eq.mp hb) hc
    rw [if_pos (by omega), hm, raw, hb, cond_false]

/-- Where a state goes by a nonterminal that may begin in it. -/
theorem goto_fact {s a : Nat} (hs : s < 1702) (ha1 : 1 ≤ a) (ha : a < 214) (hb : begins s a = true) :
    ∃ n : Nat, gotoState (s : Int) (a : Int) = some (n : Int) ∧ goesTo s n (2000 - a) = true ∧
      (isEmpty a = true → weight a + height n + 1 ≤ height s) := by
  refine ⟨_, goto_raw hs ha, ?_⟩
  have hk := (allFrom_iff ..).mp (gotosOk_all hs) a ha1 (by show a < 1 + 213; omega)
  have e : gotoOk s a = cond (begins s a) (andB (goesTo s (rGoto s a) (2000 - a))
    (cond (isEmpty a) (Nat.ble (weight a + height (rGoto s a) + 1) (height s)) true)) true := rfl
  rw [e, hb, cond_true, andB_iff] at hk
  refine ⟨hk.1, fun he => ?_⟩
  have := hk.2
  rw [he, cond_true, Nat.ble_eq] at this
  exact this

/-! ### Default actions -/

theorem blockOk_spec {s : Nat} (t : Int) : ∀ {l : List (Int × Int)}, blockOk s l = true →
    ∃ r, excaEntry t l = some r ∧
      ((r < 0 ∧ t = 1 ∧ hasItem s 0 1 = true) ∨ r = 0 ∨ ∃ k : Nat, r = k ∧ completeIn s k = true)
  | [], h => by cases h
  | (a, b) :: rest, h => by
    simp only [blockOk, andB_iff] at h
    obtain ⟨h1, h2⟩ := h
    unfold excaEntry
    by_cases ha : a < 0 ∨ a = t
    · rw [if_pos ha]
      refine ⟨b, rfl, ?_⟩
      by_cases hb : b < 0
      · rw [decide_eq_true hb, cond_true, andB_iff] at h1
        have ha1 : a = 1 := of_decide_eq_true h1.1
        exact .inl ⟨hb, by omega, h1.2⟩
      · rw [decide_eq_false hb, cond_false] at h1
        by_cases hz : b = 0
        · exact .inr (.inl hz)
        · rw [decide_eq_false hz, cond_false] at h1
          exact .inr (.inr ⟨b.toNat, by omega, h1⟩)
    · rw [if_neg ha]
      have : ¬ a < 0 := fun h => ha (.inl h)
      rw [decide_eq_false this, cond_false] at h2
      exact blockOk_spec t h2

theorem excaOk_spec {s : Nat} (t : Int) : ∀ {l : List (Int × Int)}, excaOk s l = true →
    ∃ r, excaFor s t l = some r ∧
      ((r < 0 ∧ t = 1 ∧ hasItem s 0 1 = true) ∨ r = 0 ∨ ∃ k : Nat, r = k ∧ completeIn s k = true)
  | [], h => by cases h
  | (a, b) :: rest, h => by
    unfold excaOk at h
    unfold excaFor
    by_cases hc : a = -1 ∧ b = s
    · rw [decide_eq_true hc, cond_true] at h
      rw [if_pos hc]
      exact blockOk_spec t h
    · rw [decide_eq_false hc, cond_false] at h
      rw [if_neg hc]
      exact excaOk_spec t h

theorem def_fact {s : Nat} (hs : s < 1702) :
    ∃ d, yyDef.at (s : Int) = some d ∧
      ((d = -2 ∧ ∀ t : Int, ∃ r, excaFor s t yyExca = some r ∧
        ((r < 0 ∧ t = 1 ∧ hasItem s 0 1 = true) ∨ r = 0 ∨ ∃ k : Nat, r = k ∧ completeIn s k = true)) ∨
       (d ≠ -2 ∧ (d = 0 ∨ ∃ k : Nat, d = k ∧ completeIn s k = true))) := by
  refine ⟨_, def_at hs, ?_⟩
  have hk := defOk_all hs
  have e : defOk s = cond (Nat.beq (rDef s) 1998) (excaOk s yyExca) (cond (Nat.beq (rDef s) 2000) true
    (andB (Nat.ble 2000 (rDef s)) (completeIn s (rDef s - 2000)))) := rfl
  rw [e] at hk
  by_cases h1 : rDef s = 1998
  · rw [h1, Nat.beq_refl, cond_true] at hk
    exact .inl ⟨by omega, fun t => excaOk_spec t hk⟩
  · have hb : Nat.beq (rDef s) 1998 = false := by
      cases hb : Nat.beq (rDef s) 1998 with
      | false => rfl
      | true => exact absurd (Nat.beq_eq.mp hb) h1
    rw [hb, cond_false] at hk
    refine .inr ⟨by omega, ?_⟩
    by_cases h2 : rDef s = 2000
    · exact .inl (by omega)
    · have hb : Nat.beq (rDef s) 2000 = false := by
        cases hb : Nat.beq (rDef s) 2000 with
        | false => rfl
        | true => exact absurd (Nat.beq_eq.mp hb) h2
      rw [hb, cond_false, andB_iff, Nat.ble_eq] at hk
      exact .inr ⟨rDef s - 2000, by omega, hk.2⟩

/-! ### Rules -/

theorem sumB_succ (f : Nat → Nat) (n : Nat) : sumB f (n + 1) = sumB f n + f n := rfl

theorem rule_fact {r : Nat} (h1 : 1 ≤ r) (h : r < 999) :
    2001 ≤ rLhs r ∧ rLhs r ≤ 2213 ∧ 2000 ≤ rLen r ∧ rLen r ≤ 2015 ∧
    rhsStart (r + 1) = rhsStart r + (rLen r - 2000) ∧
    (rLen r = 2000 → isEmpty (rLhs r - 2000) = true) ∧
    (rLen r ≠ 2000 → weight (rLhs r - 2000) + topHeight (rLhs r - 2000) + 1 ≤
      sumB (fun d => symWeight (rhsAt r d)) (rLen r - 2000)) := by
  have hk := ruleOk_all h1 h
  have e : ruleOk r = andB (Nat.ble 2001 (rLhs r)) (andB (Nat.ble (rLhs r) 2213)
    (andB (Nat.ble 2000 (rLen r)) (andB (Nat.ble (rLen r) 2015)
    (andB (Nat.beq (rhsStart (r + 1)) (rhsStart r + (rLen r - 2000)))
      (cond (Nat.beq (rLen r - 2000) 0) (isEmpty (rLhs r - 2000))
        (Nat.ble (weight (rLhs r - 2000) + topHeight (rLhs r - 2000) + 1)
          (sumB (fun d => symWeight (rhsAt r d)) (rLen r - 2000)))))))) := rfl
  rw [e] at hk
  simp only [andB_iff, Nat.ble_eq, Nat.beq_eq] at hk
  obtain ⟨a, b, c, d, f, g⟩ := hk
  refine ⟨a, b, c, d, f, fun hz => ?_, fun hz => ?_⟩
  · rw [show rLen r - 2000 = 0 by omega, Nat.beq_refl, cond_true] at g
    exact g
  · have hb : Nat.beq (rLen r - 2000) 0 = false := by
      cases hb : Nat.beq (rLen r - 2000) 0 with
      | false => rfl
      | true => have := Nat.beq_eq.mp hb; omega
    rw [hb, cond_false, Nat.ble_eq] at g
    exact g

theorem height_fact {n : Nat} (h1 : 1 ≤ n) (h : n < 1702) :
    height n ≤ 6 ∧ (rChk n ≤ 2000 → height n ≤ topHeight (2000 - rChk n)) := by
  have hk := heightOk_all h1 h
  have e : heightOk n = andB (Nat.ble (height n) 6) (cond (Nat.ble (rChk n) 2000)
    (Nat.ble (height n) (topHeight (2000 - rChk n))) true) := rfl
  rw [e, andB_iff, Nat.ble_eq] at hk
  refine ⟨hk.1, fun hc => ?_⟩
  have := hk.2
  rw [Nat.ble_eq.mpr hc, cond_true, Nat.ble_eq] at this
  exact this

theorem height_zero : height 0 ≤ 6 := by decide +kernel

/-! ### Items -/

theorem hasItem_zero (s r : Nat) : hasItem s r 0 = begins s (rLhs r - 2000) := rfl

/-- An item of a state has come from the state before. -/
theorem follows_item {s n x r d : Nat} (hd : d + 1 ≤ 15) (hf : follows s n x = true)
    (hi : hasItem n r (d + 1) = true) : rhsAt r d = x ∧ hasItem s r d = true := by
  have e : hasItem n r (d + 1) = cond (allFrom (kStart n) (kStart (n + 1) - kStart n)
      (fun i => cond (Nat.beq (kItem i) (16 * r + (d + 1))) false true)) false true := rfl
  rw [e] at hi
  cases ha : allFrom (kStart n) (kStart (n + 1) - kStart n)
      (fun i => cond (Nat.beq (kItem i) (16 * r + (d + 1))) false true) with
  | true => rw [ha] at hi; cases hi
  | false =>
    have hn : ¬ ∀ i, kStart n ≤ i → i < kStart n + (kStart (n + 1) - kStart n) →
        cond (Nat.beq (kItem i) (16 * r + (d + 1))) false true = true := by
      rw [← allFrom_iff (f := fun i => cond (Nat.beq (kItem i) (16 * r + (d + 1))) false true), ha]
      simp
    simp only [Classical.not_forall] at hn
    obtain ⟨i, h1, h2, h3⟩ := hn
    have hk : kItem i = 16 * r + (d + 1) := by
      cases hb : Nat.beq (kItem i) (16 * r + (d + 1)) with
      | true => exact Nat.beq_eq.mp hb
      | false => rw [hb] at h3; simp at h3
    have hf' := (allFrom_iff ..).mp hf i h1 h2
    have e2 : ((fun k => (fun r d =>
      cond (Nat.beq d 0) false (cond (Nat.beq (rhsAt r (Nat.pred d)) x) (hasItem s r (Nat.pred d)) false))
      (k / 16) (k % 16)) (kItem i)) = true := hf'
    rw [hk] at e2
    have q1 : (16 * r + (d + 1)) / 16 = r := by omega
    have q2 : (16 * r + (d + 1)) % 16 = d + 1 := by omega
    simp only [q1, q2] at e2
    have z : Nat.beq (d + 1) 0 = false := rfl
    rw [z, cond_false, condF_iff, Nat.beq_eq] at e2
    exact e2

/-- State 0 has no item with the dot further on. -/
theorem hasItem_start (r d : Nat) : hasItem 0 r (d + 1) = false := rfl

end Sqldef.Yy
