import Verif.Proof.High.Data
import Verif.Proof.High.Lines

/-! # Solar terms: the lines are right (part 3), generated by `tools/high.py` -/

namespace High

theorem sunOk8 : Block.sunBlockOk 6452 520 1000000 0 (sun8.map (rowAt 6452)) = true := by decide +kernel
theorem sunOk9 : Block.sunBlockOk 7492 520 1000000 0 (sun9.map (rowAt 7492)) = true := by decide +kernel

end High
