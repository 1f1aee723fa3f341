import Verif.Model.Yy
import Verif.Proofs.YyCertificate

/-!
The checks of the certificate: boolean functions on raw numbers, so that the kernel can run them on
all states, tokens and rules.
-/
namespace Sqldef.Yy

/-- `f` holds below `n`. -/
def allB (f : Nat → Bool) (n : Nat) : Bool :=
  Nat.rec true (fun i acc => cond (f i) acc false) n

theorem allB_iff (f : Nat → Bool) (n : Nat) : allB f n = true ↔ ∀ i, i < n → f i = true := by
  induction n with
  | zero => exact ⟨fun _ i hi => absurd hi (Nat.not_lt_zero i), fun _ => rfl⟩
  | succ n ih =>
    have : allB f (n + 1) = cond (f n) (allB f n) false := rfl
    rw [this]
    constructor
    · intro h i hi
      cases hf : f n with
      | false => simp [hf] at h
      | true =>
        rw [hf, cond_true, ih] at h
        rcases Nat.lt_succ_iff_lt_or_eq.mp hi with h' | h'
        · exact h i h'
        · rw [h', hf]
    · intro h
      rw [h n (Nat.lt_succ_self n), cond_true, ih]
      exact fun i hi => h i (Nat.lt_succ_of_lt hi)

/-- `f` holds from `lo` on, `n` times. -/
def allFrom (lo n : Nat) (f : Nat → Bool) : Bool := allB (fun i => f (Nat.add lo i)) n

theorem allFrom_iff (lo n : Nat) (f : Nat → Bool) :
    allFrom lo n f = true ↔ ∀ i, lo ≤ i → i < lo + n → f i = true := by
  unfold allFrom
  rw [allB_iff]
  constructor
  · intro h i h1 h2
    have := h (i - lo) (by omega)
    have e : Nat.add lo (i - lo) = i := by show lo + (i - lo) = i; omega
    rw [e] at this
    exact this
  · intro h i hi
    exact h (Nat.add lo i) (Nat.le_add_right lo i) (Nat.add_lt_add_left hi lo)

def andB (a b : Bool) : Bool := cond a b false

theorem andB_iff (a b : Bool) : andB a b = true ↔ a = true ∧ b = true := by
  cases a <;> cases b <;> simp [andB]

def rPact (s : Nat) : Nat := entry bitsPact (nat_lit 1702) s
def rAct (i : Nat) : Nat := entry bitsAct (nat_lit 14695) i
def rChk (s : Nat) : Nat := entry bitsChk (nat_lit 1702) s
def rDef (s : Nat) : Nat := entry bitsDef (nat_lit 1702) s
def rPgo (a : Nat) : Nat := entry bitsPgo (nat_lit 214) a
def rLhs (r : Nat) : Nat := entry bitsR1 (nat_lit 999) r
def rLen (r : Nat) : Nat := entry bitsR2 (nat_lit 999) r

def kStart (s : Nat) : Nat := entry certStart (nat_lit 1703) s
def kItem (i : Nat) : Nat := entry certItem certItems i
def rhsStart (r : Nat) : Nat := entry certRhsStart (nat_lit 1000) r
def rhsAt (r d : Nat) : Nat := entry certRhs certRhsSize (Nat.add (rhsStart r) d)
def begins (s a : Nat) : Bool :=
  Nat.beq (Nat.land (Nat.shiftRight certBegins (Nat.add (Nat.mul (nat_lit 256) s) a)) (nat_lit 1)) (nat_lit 1)

/-- State `s` has the item `r` with the dot at `d`. -/
def hasItem (s r d : Nat) : Bool :=
  cond (Nat.beq d (nat_lit 0)) (begins s (Nat.sub (rLhs r) (nat_lit 2000)))
    (cond (allFrom (kStart s) (Nat.sub (kStart (Nat.succ s)) (kStart s))
      (fun i => cond (Nat.beq (kItem i) (Nat.add (Nat.mul (nat_lit 16) r) d)) false true)) false true)

/-- Every item of `n` comes from an item of `s` by the symbol `x`. -/
def follows (s n x : Nat) : Bool :=
  allFrom (kStart n) (Nat.sub (kStart (Nat.succ n)) (kStart n)) (fun i =>
    (fun k => (fun r d =>
      cond (Nat.beq d (nat_lit 0)) false
        (cond (Nat.beq (rhsAt r (Nat.pred d)) x) (hasItem s r (Nat.pred d)) false))
      (Nat.div k (nat_lit 16)) (Nat.mod k (nat_lit 16))) (kItem i))

/-- `n` is a state other than 0 that state `s` goes to by the symbol `x`. -/
def goesTo (s n x : Nat) : Bool :=
  cond (Nat.ble (nat_lit 1) n) (cond (Nat.ble n (nat_lit 1701)) (cond (Nat.beq (rChk n) x) (follows s n x) false) false) false

/-- 0: nothing to shift in state `s` (with `yyPact` entry `p`) on token `t`; else one more than the next state. -/
def rShift (p t : Nat) : Nat :=
  (fun n => cond (Nat.ble (nat_lit 2000) n) (cond (Nat.ble n (nat_lit 16694))
    ((fun a => cond (Nat.beq (rChk a) (Nat.add t (nat_lit 2000))) (Nat.succ a) (nat_lit 0))
      (Nat.sub (rAct (Nat.sub n (nat_lit 2000))) (nat_lit 2000))) (nat_lit 0)) (nat_lit 0)) (Nat.add p t)

def shiftsOk (s : Nat) : Bool :=
  (fun p => cond (Nat.ble p (nat_lit 1000)) true
    (andB (Nat.beq (rShift p (nat_lit 1)) (nat_lit 0))
    (andB (Nat.beq (rShift p (nat_lit 2)) (nat_lit 0))
      (allFrom (nat_lit 3) (nat_lit 313) (fun t =>
        (fun n => cond (Nat.beq n (nat_lit 0)) true (goesTo s (Nat.pred n) (Nat.add t (nat_lit 2000)))) (rShift p t)))))) (rPact s)

/-- Every entry of `yyAct` is a state. -/
def actOk (i : Nat) : Bool := andB (Nat.ble (nat_lit 2000) (rAct i)) (Nat.ble (rAct i) (nat_lit 3701))

def pgoOk (a : Nat) : Bool := andB (Nat.ble (nat_lit 2000) (rPgo a)) (Nat.ble (rPgo a) (nat_lit 4000))

def gotoChosen (a g n : Nat) : Nat :=
  cond (Nat.beq (rChk n) (Nat.sub (nat_lit 2000) a)) n (Nat.sub (rAct g) (nat_lit 2000))

/-- The state after a reduction to `a` on top of `s`. -/
def rGoto (s a : Nat) : Nat :=
  (fun g => gotoChosen a g (Nat.sub (rAct (Nat.succ (Nat.add g s))) (nat_lit 2000)))
    (Nat.sub (rPgo a) (nat_lit 2000))

def weight (a : Nat) : Nat := entry certWeight (nat_lit 214) a
def topHeight (a : Nat) : Nat := entry certTop (nat_lit 214) a
def height (s : Nat) : Nat := entry certHeight (nat_lit 1702) s
def isEmpty (a : Nat) : Bool :=
  Nat.beq (Nat.land (Nat.shiftRight certEmpty a) (nat_lit 1)) (nat_lit 1)

def gotoOk (s a : Nat) : Bool :=
  cond (begins s a)
    (andB (goesTo s (rGoto s a) (Nat.sub (nat_lit 2000) a))
      (cond (isEmpty a)
        (Nat.ble (Nat.succ (Nat.add (weight a) (height (rGoto s a)))) (height s)) true)) true

def gotosOk (s : Nat) : Bool := allFrom (nat_lit 1) (nat_lit 213) (gotoOk s)

/-- State `s` may reduce by rule `r`. -/
def completeIn (s r : Nat) : Bool :=
  andB (Nat.ble (nat_lit 1) r) (andB (Nat.ble r (nat_lit 998))
    (hasItem s r (Nat.sub (rLen r) (nat_lit 2000))))

/-- The block of the exception table that begins here is right for state `s`. -/
def blockOk (s : Nat) : List (Int × Int) → Bool
  | [] => false
  | (a, b) :: rest =>
    andB (cond (decide (b < 0)) (andB (decide (a = 1)) (hasItem s 0 1))
      (cond (decide (b = 0)) true (completeIn s b.toNat)))
      (cond (decide (a < 0)) true (blockOk s rest))

def excaOk (s : Nat) : List (Int × Int) → Bool
  | [] => false
  | (a, b) :: rest => cond (decide (a = -1 ∧ b = s)) (blockOk s rest) (excaOk s rest)

def defOk (s : Nat) : Bool :=
  (fun d => cond (Nat.beq d (nat_lit 1998)) (excaOk s yyExca)
    (cond (Nat.beq d (nat_lit 2000)) true
      (andB (Nat.ble (nat_lit 2000) d) (completeIn s (Nat.sub d (nat_lit 2000)))))) (rDef s)

/-- The weight of a symbol. -/
def symWeight (x : Nat) : Nat :=
  cond (Nat.ble (nat_lit 2001) x) certTerminal (weight (Nat.sub (nat_lit 2000) x))

def sumB (f : Nat → Nat) (n : Nat) : Nat := Nat.rec (nat_lit 0) (fun i acc => Nat.add acc (f i)) n

def ruleOk (r : Nat) : Bool :=
  (fun a n =>
    andB (Nat.ble (nat_lit 2001) (rLhs r)) (andB (Nat.ble (rLhs r) (nat_lit 2213))
    (andB (Nat.ble (nat_lit 2000) (rLen r)) (andB (Nat.ble (rLen r) (nat_lit 2015))
    (andB (Nat.beq (rhsStart (Nat.succ r)) (Nat.add (rhsStart r) n))
      (cond (Nat.beq n (nat_lit 0)) (isEmpty a)
        (Nat.ble (Nat.succ (Nat.add (weight a) (topHeight a)))
          (sumB (fun d => symWeight (rhsAt r d)) n))))))))
    (Nat.sub (rLhs r) (nat_lit 2000)) (Nat.sub (rLen r) (nat_lit 2000))

def heightOk (n : Nat) : Bool :=
  andB (Nat.ble (height n) (nat_lit 6))
    (cond (Nat.ble (rChk n) (nat_lit 2000))
      (Nat.ble (height n) (topHeight (Nat.sub (nat_lit 2000) (rChk n)))) true)

def startOk (s : Nat) : Bool := cond (begins s (nat_lit 0)) false true

end Sqldef.Yy
