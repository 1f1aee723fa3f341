import Verif.Proofs.YyCheck
import Verif.Spec.Grammar

/-! The kernel compares the numbers of the certificate with the rules of the grammar. -/
namespace Sqldef.Yy
open Spec

/-- The name of a symbol (2000 plus a token, 2000 minus a nonterminal). -/
def symName (x : Nat) : String :=
  cond (Nat.ble (nat_lit 2001) x) (terminals.getD (Nat.sub x (nat_lit 2001)) "")
    (certNames.getD (Nat.sub (nat_lit 2000) x) "")

/-- Rule `r` in names. -/
def ruleText (r : Nat) : String × List String :=
  (symName (Nat.sub (nat_lit 4000) (rLhs r)),
    (List.range (Nat.sub (rhsStart (Nat.succ r)) (rhsStart r))).map (fun d => symName (rhsAt r d)))

theorem text0 : (List.range' 0 100).map ruleText = grammar0 := by decide +kernel
theorem text100 : (List.range' 100 100).map ruleText = grammar100 := by decide +kernel
theorem text200 : (List.range' 200 100).map ruleText = grammar200 := by decide +kernel
theorem text300 : (List.range' 300 100).map ruleText = grammar300 := by decide +kernel
theorem text400 : (List.range' 400 100).map ruleText = grammar400 := by decide +kernel
theorem text500 : (List.range' 500 100).map ruleText = grammar500 := by decide +kernel
theorem text600 : (List.range' 600 100).map ruleText = grammar600 := by decide +kernel
theorem text700 : (List.range' 700 100).map ruleText = grammar700 := by decide +kernel
theorem text800 : (List.range' 800 100).map ruleText = grammar800 := by decide +kernel
theorem text900 : (List.range' 900 99).map ruleText = grammar900 := by decide +kernel

theorem grammar_text : grammar = (List.range 999).map ruleText := by
  have e : List.range 999 = List.range' 0 100 ++ List.range' 100 100 ++ List.range' 200 100 ++
    List.range' 300 100 ++ List.range' 400 100 ++ List.range' 500 100 ++ List.range' 600 100 ++
    List.range' 700 100 ++ List.range' 800 100 ++ List.range' 900 99 := by decide +kernel
  rw [e]
  simp only [List.map_append, text0, text100, text200, text300, text400, text500, text600, text700,
    text800, text900]
  rfl

/-- Rule `r` of the grammar is the rule `r` of the tables. -/
theorem grammar_rule {r : Nat} (h : r < 999) : grammar[r]? = some (ruleText r) := by
  rw [grammar_text, List.getElem?_map, List.getElem?_range h]
  rfl

end Sqldef.Yy
