import Verif.Proofs.YyCheck

/-! The kernel checks the gotos of all states, in small portions and one after the other: this keeps the memory small. -/
set_option Elab.async false
namespace Sqldef.Yy

theorem gotos0 : allFrom 0 100 gotosOk = true := by decide +kernel
theorem gotos1 : allFrom 100 100 gotosOk = true := by decide +kernel
theorem gotos2 : allFrom 200 100 gotosOk = true := by decide +kernel
theorem gotos3 : allFrom 300 100 gotosOk = true := by decide +kernel
theorem gotos4 : allFrom 400 100 gotosOk = true := by decide +kernel
theorem gotos5 : allFrom 500 100 gotosOk = true := by decide +kernel
theorem gotos6 : allFrom 600 100 gotosOk = true := by decide +kernel
theorem gotos7 : allFrom 700 100 gotosOk = true := by decide +kernel
theorem gotos8 : allFrom 800 100 gotosOk = true := by decide +kernel
theorem gotos9 : allFrom 900 100 gotosOk = true := by decide +kernel
theorem gotos10 : allFrom 1000 100 gotosOk = true := by decide +kernel
theorem gotos11 : allFrom 1100 100 gotosOk = true := by decide +kernel
theorem gotos12 : allFrom 1200 100 gotosOk = true := by decide +kernel
theorem gotos13 : allFrom 1300 100 gotosOk = true := by decide +kernel
theorem gotos14 : allFrom 1400 100 gotosOk = true := by decide +kernel
theorem gotos15 : allFrom 1500 100 gotosOk = true := by decide +kernel
theorem gotos16 : allFrom 1600 100 gotosOk = true := by decide +kernel
theorem gotos17 : allFrom 1700 2 gotosOk = true := by decide +kernel

theorem gotosOk_all {s : Nat} (h : s < 1702) : gotosOk s = true := by
  by_cases h100 : s < 100
  · exact (allFrom_iff ..).mp gotos0 s (by omega) (by omega)
  by_cases h200 : s < 200
  · exact (allFrom_iff ..).mp gotos1 s (by omega) (by omega)
  by_cases h300 : s < 300
  · exact (allFrom_iff ..).mp gotos2 s (by omega) (by omega)
  by_cases h400 : s < 400
  · exact (allFrom_iff ..).mp gotos3 s (by omega) (by omega)
  by_cases h500 : s < 500
  · exact (allFrom_iff ..).mp gotos4 s (by omega) (by omega)
  by_cases h600 : s < 600
  · exact (allFrom_iff ..).mp gotos5 s (by omega) (by omega)
  by_cases h700 : s < 700
  · exact (allFrom_iff ..).mp gotos6 s (by omega) (by omega)
  by_cases h800 : s < 800
  · exact (allFrom_iff ..).mp gotos7 s (by omega) (by omega)
  by_cases h900 : s < 900
  · exact (allFrom_iff ..).mp gotos8 s (by omega) (by omega)
  by_cases h1000 : s < 1000
  · exact (allFrom_iff ..).mp gotos9 s (by omega) (by omega)
  by_cases h1100 : s < 1100
  · exact (allFrom_iff ..).mp gotos10 s (by omega) (by omega)
  by_cases h1200 : s < 1200
  · exact (allFrom_iff ..).mp gotos11 s (by omega) (by omega)
  by_cases h1300 : s < 1300
  · exact (allFrom_iff ..).mp gotos12 s (by omega) (by omega)
  by_cases h1400 : s < 1400
  · exact (allFrom_iff ..).mp gotos13 s (by omega) (by omega)
  by_cases h1500 : s < 1500
  · exact (allFrom_iff ..).mp gotos14 s (by omega) (by omega)
  by_cases h1600 : s < 1600
  · exact (allFrom_iff ..).mp gotos15 s (by omega) (by omega)
  by_cases h1700 : s < 1700
  · exact (allFrom_iff ..).mp gotos16 s (by omega) (by omega)
  exact (allFrom_iff ..).mp gotos17 s (by omega) (by omega)

end Sqldef.Yy
