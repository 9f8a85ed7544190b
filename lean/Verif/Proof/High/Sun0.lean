import Verif.Proof.High.Data
import Verif.Proof.High.Lines

/-! # Solar terms: the lines are right (part 0), generated by `tools/high.py` -/

namespace High

theorem sunOk0 : Block.sunBlockOk 20 61 1000000 0 (sun0.map (rowAt 20)) = true := by decide +kernel
theorem sunOk1 : Block.sunBlockOk 105 24 1000000 0 (sun1.map (rowAt 105)) = true := by decide +kernel
theorem sunOk2 : Block.sunBlockOk 430 302 1000000 0 (sun2.map (rowAt 430)) = true := by decide +kernel

end High
