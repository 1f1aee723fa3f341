import Verif.Proofs.YyCheck

/-! The symbols of a rule by their codes: `t + 2000` for a token, `2000 - a` for a nonterminal. -/
namespace Sqldef.Yy

/-- The codes of the right hand side of a rule. -/
def rhsCodes (r : Nat) : List Nat := (List.range (rLen r - 2000)).map (rhsAt r)

/-- The code of the left hand side of a rule. -/
def lhsCode (r : Nat) : Nat := 2000 - (rLhs r - 2000)

theorem rhsCodes_eq (r : Nat) : rhsCodes r = (List.range (rLen r - 2000)).map (rhsAt r) := by unfold rhsCodes; rfl
theorem lhsCode_eq (r : Nat) : lhsCode r = 2000 - (rLhs r - 2000) := by unfold lhsCode; rfl

attribute [irreducible] rhsCodes lhsCode

end Sqldef.Yy
