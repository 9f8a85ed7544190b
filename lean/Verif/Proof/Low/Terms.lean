import Verif.Proof.Low.Days

/-! # The days of the solar terms are right, generated by `tools/low.py` -/

open Aff0 ShouXing High

namespace Low

theorem qiOk0 : blockOk (lowOk (-280) 80 0) 0 (qi0.map (rowAt (-280))) = true := by decide +kernel

theorem qiOk1 : blockOk (lowOk (-119) 81 0) 0 (qi1.map (rowAt (-119))) = true := by decide +kernel

theorem pairs_0 : allFrom pairStep 1516 0 = true := by decide +kernel

theorem pairs : allFrom pairStep 1516 0 = true := pairs_0

theorem terms0_1516 : allFrom (termStep qi0) 1000 1516 = true := by decide +kernel

theorem terms0_2516 : allFrom (termStep qi0) 1000 2516 = true := by decide +kernel

theorem terms0_3516 : allFrom (termStep qi0) 1000 3516 = true := by decide +kernel

theorem terms0_4516 : allFrom (termStep qi0) 684 4516 = true := by decide +kernel

theorem terms0 : allFrom (termStep qi0) 3684 1516 = true := allFrom_add (n := 3684) (m' := 2516) (by norm_num) terms0_1516 (allFrom_add (n := 2684) (m' := 3516) (by norm_num) terms0_2516 (allFrom_add (n := 1684) (m' := 4516) (by norm_num) terms0_3516 (terms0_4516)))

theorem terms1_5200 : allFrom (termStep qi1) 1000 5200 = true := by decide +kernel

theorem terms1_6200 : allFrom (termStep qi1) 1000 6200 = true := by decide +kernel

theorem terms1_7200 : allFrom (termStep qi1) 1000 7200 = true := by decide +kernel

theorem terms1_8200 : allFrom (termStep qi1) 859 8200 = true := by decide +kernel

theorem terms1 : allFrom (termStep qi1) 3859 5200 = true := allFrom_add (n := 3859) (m' := 6200) (by norm_num) terms1_5200 (allFrom_add (n := 2859) (m' := 7200) (by norm_num) terms1_6200 (allFrom_add (n := 1859) (m' := 8200) (by norm_num) terms1_7200 (terms1_8200)))

theorem terms2_9059 : allFrom termHigh 48 9059 = true := by decide +kernel

theorem terms2 : allFrom termHigh 48 9059 = true := terms2_9059

theorem moons4_4705 : allFrom moonHigh 31 4705 = true := by decide +kernel

theorem moons4 : allFrom moonHigh 31 4705 = true := moons4_4705

end Low
