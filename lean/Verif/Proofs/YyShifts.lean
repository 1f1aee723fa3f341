import Verif.Proofs.YyCheck

/-! The kernel checks the shifts of all states, and the small tables, one after the other: this keeps the memory
small. -/
set_option Elab.async false
namespace Sqldef.Yy

theorem shifts0 : allFrom 0 100 shiftsOk = true := by decide +kernel
theorem shifts1 : allFrom 100 100 shiftsOk = true := by decide +kernel
theorem shifts2 : allFrom 200 100 shiftsOk = true := by decide +kernel
theorem shifts3 : allFrom 300 100 shiftsOk = true := by decide +kernel
theorem shifts4 : allFrom 400 100 shiftsOk = true := by decide +kernel
theorem shifts5 : allFrom 500 100 shiftsOk = true := by decide +kernel
theorem shifts6 : allFrom 600 100 shiftsOk = true := by decide +kernel
theorem shifts7 : allFrom 700 100 shiftsOk = true := by decide +kernel
theorem shifts8 : allFrom 800 100 shiftsOk = true := by decide +kernel
theorem shifts9 : allFrom 900 100 shiftsOk = true := by decide +kernel
theorem shifts10 : allFrom 1000 100 shiftsOk = true := by decide +kernel
theorem shifts11 : allFrom 1100 100 shiftsOk = true := by decide +kernel
theorem shifts12 : allFrom 1200 100 shiftsOk = true := by decide +kernel
theorem shifts13 : allFrom 1300 100 shiftsOk = true := by decide +kernel
theorem shifts14 : allFrom 1400 100 shiftsOk = true := by decide +kernel
theorem shifts15 : allFrom 1500 100 shiftsOk = true := by decide +kernel
theorem shifts16 : allFrom 1600 100 shiftsOk = true := by decide +kernel
theorem shifts17 : allFrom 1700 2 shiftsOk = true := by decide +kernel

theorem shiftsOk_all {s : Nat} (h : s < 1702) : shiftsOk s = true := by
  by_cases h100 : s < 100
  · exact (allFrom_iff ..).mp shifts0 s (by omega) (by omega)
  by_cases h200 : s < 200
  · exact (allFrom_iff ..).mp shifts1 s (by omega) (by omega)
  by_cases h300 : s < 300
  · exact (allFrom_iff ..).mp shifts2 s (by omega) (by omega)
  by_cases h400 : s < 400
  · exact (allFrom_iff ..).mp shifts3 s (by omega) (by omega)
  by_cases h500 : s < 500
  · exact (allFrom_iff ..).mp shifts4 s (by omega) (by omega)
  by_cases h600 : s < 600
  · exact (allFrom_iff ..).mp shifts5 s (by omega) (by omega)
  by_cases h700 : s < 700
  · exact (allFrom_iff ..).mp shifts6 s (by omega) (by omega)
  by_cases h800 : s < 800
  · exact (allFrom_iff ..).mp shifts7 s (by omega) (by omega)
  by_cases h900 : s < 900
  · exact (allFrom_iff ..).mp shifts8 s (by omega) (by omega)
  by_cases h1000 : s < 1000
  · exact (allFrom_iff ..).mp shifts9 s (by omega) (by omega)
  by_cases h1100 : s < 1100
  · exact (allFrom_iff ..).mp shifts10 s (by omega) (by omega)
  by_cases h1200 : s < 1200
  · exact (allFrom_iff ..).mp shifts11 s (by omega) (by omega)
  by_cases h1300 : s < 1300
  · exact (allFrom_iff ..).mp shifts12 s (by omega) (by omega)
  by_cases h1400 : s < 1400
  · exact (allFrom_iff ..).mp shifts13 s (by omega) (by omega)
  by_cases h1500 : s < 1500
  · exact (allFrom_iff ..).mp shifts14 s (by omega) (by omega)
  by_cases h1600 : s < 1600
  · exact (allFrom_iff ..).mp shifts15 s (by omega) (by omega)
  by_cases h1700 : s < 1700
  · exact (allFrom_iff ..).mp shifts16 s (by omega) (by omega)
  exact (allFrom_iff ..).mp shifts17 s (by omega) (by omega)

theorem actsA : allFrom 0 14695 actOk = true := by decide +kernel
theorem pgosA : allFrom 0 214 pgoOk = true := by decide +kernel
theorem defsA : allFrom 0 1702 defOk = true := by decide +kernel
theorem rulesA : allFrom 1 998 ruleOk = true := by decide +kernel
theorem heightsA : allFrom 1 1701 heightOk = true := by decide +kernel
theorem startsA : allFrom 1 1701 startOk = true := by decide +kernel

theorem act_range {i : Nat} (h : i < 14695) : 2000 ≤ rAct i ∧ rAct i ≤ 3701 := by
  have := (allFrom_iff ..).mp actsA i (by omega) (by omega)
  simp only [actOk, andB_iff, Nat.ble_eq] at this
  exact this

theorem pgo_range {a : Nat} (h : a < 214) : 2000 ≤ rPgo a ∧ rPgo a ≤ 4000 := by
  have := (allFrom_iff ..).mp pgosA a (by omega) (by omega)
  simp only [pgoOk, andB_iff, Nat.ble_eq] at this
  exact this

theorem defOk_all {s : Nat} (h : s < 1702) : defOk s = true :=
  (allFrom_iff ..).mp defsA s (by omega) (by omega)

theorem ruleOk_all {r : Nat} (h1 : 1 ≤ r) (h : r < 999) : ruleOk r = true :=
  (allFrom_iff ..).mp rulesA r h1 (by omega)

theorem heightOk_all {s : Nat} (h1 : 1 ≤ s) (h : s < 1702) : heightOk s = true :=
  (allFrom_iff ..).mp heightsA s h1 (by omega)

/-- Only state 0 begins the whole text. -/
theorem begins_zero {s : Nat} (h : s < 1702) (hb : begins s 0 = true) : s = 0 := by
  by_cases h1 : 1 ≤ s
  · have := (allFrom_iff ..).mp startsA s h1 (by omega)
    have e : startOk s = cond (begins s 0) false true := rfl
    rw [e, hb] at this
    cases this
  · omega

end Sqldef.Yy
