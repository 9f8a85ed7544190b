import Verif.Proof.High.Data
import Verif.Proof.High.Lines

/-! # Solar terms: the lines are right (part 2), generated by `tools/high.py` -/

namespace High

theorem sunOk6 : Block.sunBlockOk 4372 520 1000000 0 (sun6.map (rowAt 4372)) = true := by decide +kernel
theorem sunOk7 : Block.sunBlockOk 5412 520 1000000 0 (sun7.map (rowAt 5412)) = true := by decide +kernel

end High
