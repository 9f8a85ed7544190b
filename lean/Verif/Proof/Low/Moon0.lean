import Verif.Proof.Low.Days

/-! # The days of new moons are right, generated by `tools/low.py` -/

namespace Low

theorem moons0_40 : allFrom moonStep 300 40 = true := by decide +kernel

theorem moons0_340 : allFrom moonStep 300 340 = true := by decide +kernel

theorem moons0_640 : allFrom moonStep 300 640 = true := by decide +kernel

theorem moons0_940 : allFrom moonStep 260 940 = true := by decide +kernel

theorem moons0 : allFrom moonStep 1160 40 = true := allFrom_add (n := 1160) (m' := 340) (by norm_num) moons0_40 (allFrom_add (n := 860) (m' := 640) (by norm_num) moons0_340 (allFrom_add (n := 560) (m' := 940) (by norm_num) moons0_640 (moons0_940)))

end Low
