import Verif.Proof.Low.Days

/-! # The days of new moons are right, generated by `tools/low.py` -/

namespace Low

theorem moons2_2370 : allFrom moonStep 300 2370 = true := by decide +kernel

theorem moons2_2670 : allFrom moonStep 300 2670 = true := by decide +kernel

theorem moons2_2970 : allFrom moonStep 300 2970 = true := by decide +kernel

theorem moons2_3270 : allFrom moonStep 270 3270 = true := by decide +kernel

theorem moons2 : allFrom moonStep 1170 2370 = true := allFrom_add (n := 1170) (m' := 2670) (by norm_num) moons2_2370 (allFrom_add (n := 870) (m' := 2970) (by norm_num) moons2_2670 (allFrom_add (n := 570) (m' := 3270) (by norm_num) moons2_2970 (moons2_3270)))

end Low
