import Verif.Proofs.YyDriver
import Verif.Proofs.YyLast

/-!
A `::` without a left operand is read only after a token that asks for an operand: the kernel checks the certificate of
`Verif.Proofs.YyLast` on all states.
-/
namespace Sqldef.Yy

/-- Is the number in the set? -/
def inBits (b i : Nat) : Bool := Nat.beq (Nat.land (Nat.shiftRight b i) (nat_lit 1)) (nat_lit 1)

def isOpener (t : Nat) : Bool := inBits openerBits t
def isClosed (s : Nat) : Bool := inBits closedBits s
def mayEnd (a : Nat) : Bool := inBits endsBits a

/-- A closed state other than the first: the token that leads to it is an opener, or the nonterminal ends with one. -/
def closedOk (n : Nat) : Bool :=
  cond (isClosed n) ((fun x => cond (Nat.ble (nat_lit 2001) x) (isOpener (Nat.sub x (nat_lit 2000)))
    (cond (mayEnd (Nat.sub (nat_lit 2000) x)) false true)) (rChk n)) true

/-- The rules that may be reduced in a state that is not closed. -/
def endsOk (s : Nat) : Bool :=
  cond (isClosed s) true (allFrom (kStart s) (Nat.sub (kStart (Nat.succ s)) (kStart s)) (fun i =>
    (fun k => (fun r d => cond (Nat.beq d (Nat.sub (rLen r) (nat_lit 2000)))
      (mayEnd (Nat.sub (rLhs r) (nat_lit 2000))) true)
      (Nat.div k (nat_lit 16)) (Nat.mod k (nat_lit 16))) (kItem i)))

/-- All states that go to `n` are closed. -/
def beforeOk (n : Nat) : Bool :=
  allFrom (nat_lit 0) (nat_lit 1702) (fun s => cond (goesTo s n (rChk n)) (isClosed s) true)

/-- The states before a closed state that may be reached without reading anything are closed. -/
def emptyOk (n : Nat) : Bool :=
  cond (isClosed n) ((fun x => cond (Nat.ble x (nat_lit 2000))
    (cond (isEmpty (Nat.sub (nat_lit 2000) x)) (beforeOk n) true) true) (rChk n)) true

/-- Only one state is after the token of the rule. -/
def castOk (s : Nat) : Bool :=
  cond (Nat.beq s castState) true (cond (hasItem s (nat_lit 612) (nat_lit 1)) false true)

theorem closed_all : allFrom 1 1701 closedOk = true := by decide +kernel
theorem ends_all : allFrom 0 1702 endsOk = true := by decide +kernel
theorem empty_all : allFrom 1 1701 emptyOk = true := by decide +kernel
theorem before_cast : beforeOk castState = true := by decide +kernel
theorem cast_all : allFrom 0 1702 castOk = true := by decide +kernel

theorem closed_token {n t : Nat} (h1 : 1 ≤ n) (h2 : n ≤ 1701) (ht : 1 ≤ t) (hx : rChk n = t + 2000)
    (hc : isClosed n = true) : isOpener t = true := by
  have h := (allFrom_iff ..).mp closed_all n h1 (by omega)
  have e : closedOk n = cond (isClosed n) (cond (Nat.ble 2001 (rChk n)) (isOpener (rChk n - 2000))
    (cond (mayEnd (2000 - rChk n)) false true)) true := rfl
  rw [e, hc, cond_true, hx, Nat.ble_eq.mpr (by omega), cond_true, Nat.add_sub_cancel] at h
  exact h

theorem closed_symbol {n a : Nat} (h1 : 1 ≤ n) (h2 : n ≤ 1701) (ha : a ≤ 2000) (hx : rChk n = 2000 - a)
    (hc : isClosed n = true) : mayEnd a = false := by
  have h := (allFrom_iff ..).mp closed_all n h1 (by omega)
  have e : closedOk n = cond (isClosed n) (cond (Nat.ble 2001 (rChk n)) (isOpener (rChk n - 2000))
    (cond (mayEnd (2000 - rChk n)) false true)) true := rfl
  have hb : Nat.ble 2001 (2000 - a) = false := by
    cases hb : Nat.ble 2001 (2000 - a) with
    | false => rfl
    | true => rw [Nat.ble_eq] at hb; omega
  rw [e, hc, cond_true, hx, hb, cond_false, show 2000 - (2000 - a) = a by omega] at h
  cases hm : mayEnd a with
  | false => rfl
  | true => rw [hm] at h; cases h

theorem hasItem_index {s r d : Nat} (hi : hasItem s r (d + 1) = true) :
    ∃ i, kStart s ≤ i ∧ i < kStart s + (kStart (s + 1) - kStart s) ∧ kItem i = 16 * r + (d + 1) := by
  have e : hasItem s r (d + 1) = cond (allFrom (kStart s) (kStart (s + 1) - kStart s)
      (fun i => cond (Nat.beq (kItem i) (16 * r + (d + 1))) false true)) false true := rfl
  rw [e] at hi
  by_cases h : ∃ i, kStart s ≤ i ∧ i < kStart s + (kStart (s + 1) - kStart s) ∧ kItem i = 16 * r + (d + 1)
  · exact h
  · exfalso
    have ha : allFrom (kStart s) (kStart (s + 1) - kStart s)
        (fun i => cond (Nat.beq (kItem i) (16 * r + (d + 1))) false true) = true := by
      rw [allFrom_iff]
      intro i h1 h2
      have hb : Nat.beq (kItem i) (16 * r + (d + 1)) = false := by
        cases hb : Nat.beq (kItem i) (16 * r + (d + 1)) with
        | false => rfl
        | true => rw [Nat.beq_eq] at hb; exact absurd ⟨i, h1, h2, hb⟩ h
      rw [hb, cond_false]
    rw [ha] at hi
    cases hi

/-- In a state that is not closed, what is reduced may end otherwise. -/
theorem ends_rule {k r : Nat} (hk : k < 1702) (hr : completeIn k r = true) (hl : rLen r ≠ 2000)
    (hc : isClosed k = false) : mayEnd (rLhs r - 2000) = true := by
  obtain ⟨hr1, hr2, hi⟩ := (completeIn_iff ..).mp hr
  obtain ⟨_, _, f3, f4, _⟩ := rule_fact hr1 (show r < 999 by omega)
  obtain ⟨d, hd⟩ : ∃ d, rLen r - 2000 = d + 1 := ⟨rLen r - 2001, by omega⟩
  rw [hd] at hi
  obtain ⟨i, h1, h2, h3⟩ := hasItem_index hi
  have h := (allFrom_iff ..).mp ends_all k (by omega) (by omega)
  have e : endsOk k = cond (isClosed k) true (allFrom (kStart k) (kStart (k + 1) - kStart k) (fun i =>
    cond (Nat.beq (kItem i % 16) (rLen (kItem i / 16) - 2000)) (mayEnd (rLhs (kItem i / 16) - 2000)) true)) := rfl
  rw [e, hc, cond_false] at h
  have h := (allFrom_iff ..).mp h i h1 h2
  rw [h3, show (16 * r + (d + 1)) / 16 = r by omega, show (16 * r + (d + 1)) % 16 = d + 1 by omega, hd,
    Nat.beq_refl, cond_true] at h
  exact h

theorem before_closed {s n x : Nat} (hs : s < 1702) (hb : beforeOk n = true) (hg : goesTo s n x = true) :
    isClosed s = true := by
  have h := (allFrom_iff ..).mp hb s (Nat.zero_le s) (by show s < 0 + 1702; omega)
  have hg := hg
  rw [← ((goesTo_iff ..).mp hg).2.2.1] at hg
  simp only [hg, cond_true] at h
  exact h

/-- The state after a reduction is closed only if the state before it is. -/
theorem closed_reduce {k r q n : Nat} {rest below : List Nat} (hk : k < 1702) (hq : q < 1702)
    (hr : completeIn k r = true) (hd : (k :: rest).drop (rLen r - 2000) = q :: below)
    (hg : goesTo q n (2000 - (rLhs r - 2000)) = true) (hc : isClosed n = true) : isClosed k = true := by
  obtain ⟨hr1, hr2, _⟩ := (completeIn_iff ..).mp hr
  obtain ⟨f1, f2, f3, f4, _, f6, _⟩ := rule_fact hr1 (show r < 999 by omega)
  obtain ⟨g1, g2, g3, _⟩ := (goesTo_iff ..).mp hg
  by_cases hl : rLen r = 2000
  · have he := f6 hl
    have h := (allFrom_iff ..).mp empty_all n g1 (by omega)
    have e : emptyOk n = cond (isClosed n) (cond (Nat.ble (rChk n) 2000)
      (cond (isEmpty (2000 - rChk n)) (beforeOk n) true) true) true := rfl
    rw [e, hc, cond_true, g3, Nat.ble_eq.mpr (by omega), cond_true,
      show 2000 - (2000 - (rLhs r - 2000)) = rLhs r - 2000 by omega, he, cond_true] at h
    have := before_closed hq h hg
    rw [hl] at hd
    simp only [Nat.sub_self, List.drop_zero, List.cons.injEq] at hd
    rw [hd.1]; exact this
  · cases hck : isClosed k with
    | true => rfl
    | false =>
      have h1 := ends_rule hk hr hl hck
      have h2 := closed_symbol g1 g2 (by omega) g3 hc
      rw [h1] at h2; cases h2

/-- Before a `::` without a left operand, the state is closed. -/
theorem closed_cast {k x : Nat} (hk : k < 1702) (hg : goesTo k castState x = true) : isClosed k = true :=
  before_closed hk before_cast hg

theorem cast_length : rLen 612 = 2002 := by decide +kernel

/-- The rule is only reduced above that state. -/
theorem cast_reduce {k : Nat} {rest : List Nat} (hl : Linked (k :: rest)) (hr : completeIn k 612 = true) :
    castState ∈ k :: rest := by
  obtain ⟨_, _, hi⟩ := (completeIn_iff ..).mp hr
  rw [cast_length] at hi
  cases rest with
  | nil =>
    have : k = 0 := hl
    subst this
    rw [hasItem_start] at hi
    cases hi
  | cons s rest =>
    obtain ⟨_, h⟩ := follows_item (d := 1) (by omega) ((goesTo_iff ..).mp hl.1).2.2.2 hi
    have hs : s < 1702 := linked_top hl.2
    have hc := (allFrom_iff ..).mp cast_all s (by omega) (by omega)
    have e : castOk s = cond (Nat.beq s castState) true (cond (hasItem s 612 1) false true) := rfl
    rw [e, h] at hc
    cases hb : Nat.beq s castState with
    | false => rw [hb] at hc; cases hc
    | true => rw [Nat.beq_eq] at hb; simp [hb]

end Sqldef.Yy
