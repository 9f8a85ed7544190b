import Verif.Proof.High.Data
import Verif.Proof.High.Lines

/-! # No solar term is in the last second of a month, generated by `tools/high.py` -/

namespace High

/-- hints: shift of the year, month, years left out -/
def hints : List (ℕ × ℕ × List ℕ) := [
  (0, 1, []), (0, 1, []), (0, 2, []), (0, 2, []), (0, 3, []), (0, 3, []), (0, 4, []), (0, 4, []), (0, 5, []),
  (0, 5, []), (0, 6, []), (0, 6, []), (0, 7, []), (0, 7, []), (0, 8, []), (0, 8, []), (0, 9, []), (0, 9, []),
  (0, 10, []), (0, 10, []), (0, 10, []), (0, 11, []), (0, 11, []), (1, 0, [])]

theorem monthOk0 : monthAll 1961 2081 sun0 hints = true := by decide +kernel
theorem monthOk1 : monthAll 2081 2129 sun1 hints = true := by decide +kernel
theorem monthOk2 : monthAll 2129 2732 sun2 hints = true := by decide +kernel
theorem monthOk3 : monthAll 2732 3772 sun3 hints = true := by decide +kernel
theorem monthOk4 : monthAll 3772 4812 sun4 hints = true := by decide +kernel
theorem monthOk5 : monthAll 4812 5852 sun5 hints = true := by decide +kernel
theorem monthOk6 : monthAll 5852 6891 sun6 hints = true := by decide +kernel

theorem hints_nil : hints.all (fun h => h.2.2.isEmpty) = true := by decide +kernel

end High
