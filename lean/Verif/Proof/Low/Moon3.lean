import Verif.Proof.Low.Days

/-! # The days of new moons are right, generated by `tools/low.py` -/

namespace Low

theorem moons3_3540 : allFrom moonStep 300 3540 = true := by decide +kernel

theorem moons3_3840 : allFrom moonStep 300 3840 = true := by decide +kernel

theorem moons3_4140 : allFrom moonStep 300 4140 = true := by decide +kernel

theorem moons3_4440 : allFrom moonStep 266 4440 = true := by decide +kernel

theorem moons3 : allFrom moonStep 1166 3540 = true := allFrom_add (n := 1166) (m' := 3840) (by norm_num) moons3_3540 (allFrom_add (n := 866) (m' := 4140) (by norm_num) moons3_3840 (allFrom_add (n := 566) (m' := 4440) (by norm_num) moons3_4140 (moons3_4440)))

end Low
