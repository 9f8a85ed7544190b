import Verif.Proof.Low.Days

/-! # The days of new moons are right, generated by `tools/low.py` -/

namespace Low

theorem moons1_1200 : allFrom moonStep 300 1200 = true := by decide +kernel

theorem moons1_1500 : allFrom moonStep 300 1500 = true := by decide +kernel

theorem moons1_1800 : allFrom moonStep 300 1800 = true := by decide +kernel

theorem moons1_2100 : allFrom moonStep 270 2100 = true := by decide +kernel

theorem moons1 : allFrom moonStep 1170 1200 = true := allFrom_add (n := 1170) (m' := 1500) (by norm_num) moons1_1200 (allFrom_add (n := 870) (m' := 1800) (by norm_num) moons1_1500 (allFrom_add (n := 570) (m' := 2100) (by norm_num) moons1_1800 (moons1_2100)))

end Low
