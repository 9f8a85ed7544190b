import Verif.Proof.High.Data
import Verif.Proof.High.Lines

/-! # Solar terms: the lines are right (part 1), generated by `tools/high.py` -/

namespace High

theorem sunOk3 : Block.sunBlockOk 1252 520 1000000 0 (sun3.map (rowAt 1252)) = true := by decide +kernel
theorem sunOk4 : Block.sunBlockOk 2292 520 1000000 0 (sun4.map (rowAt 2292)) = true := by decide +kernel
theorem sunOk5 : Block.sunBlockOk 3332 520 1000000 0 (sun5.map (rowAt 3332)) = true := by decide +kernel

end High
