import Verif.Proof.High.Data
import Verif.Proof.High.Lines

/-! # New moons: the lines are right, generated by `tools/high.py` -/

namespace High

theorem moonOk0 : Block.moonOk 0 500 0 420000000 (moonAt 0 moon0) (Int.ofNat moon0.b) moon0.r = true := by decide +kernel
theorem moonOk1 : Block.moonOk 1236 1250 1000000000 1020000000 (moonAt 1236 moon1) (Int.ofNat moon1.b) moon1.r = true := by decide +kernel
theorem moonOk2 : Block.moonOk 3710 3000 3000000000 2500000000 (moonAt 3710 moon2) (Int.ofNat moon2.b) moon2.r = true := by decide +kernel
theorem moonOk3 : Block.moonOk 12368 6200 10000000000 5030000000 (moonAt 12368 moon3) (Int.ofNat moon3.b) moon3.r = true := by decide +kernel
theorem moonOk4 : Block.moonOk 24737 6200 20000000000 5030000000 (moonAt 24737 moon4) (Int.ofNat moon4.b) moon4.r = true := by decide +kernel
theorem moonOk5 : Block.moonOk 37105 6200 30000000000 5030000000 (moonAt 37105 moon5) (Int.ofNat moon5.b) moon5.r = true := by decide +kernel
theorem moonOk6 : Block.moonOk 49474 6200 40000000000 5030000000 (moonAt 49474 moon6) (Int.ofNat moon6.b) moon6.r = true := by decide +kernel
theorem moonOk7 : Block.moonOk 61842 6200 50000000000 5030000000 (moonAt 61842 moon7) (Int.ofNat moon7.b) moon7.r = true := by decide +kernel
theorem moonOk8 : Block.moonOk 74211 6200 60000000000 5030000000 (moonAt 74211 moon8) (Int.ofNat moon8.b) moon8.r = true := by decide +kernel
theorem moonOk9 : Block.moonOk 86579 6200 70000000000 5030000000 (moonAt 86579 moon9) (Int.ofNat moon9.b) moon9.r = true := by decide +kernel
theorem moonOk10 : Block.moonOk 98948 6200 80000000000 5030000000 (moonAt 98948 moon10) (Int.ofNat moon10.b) moon10.r = true := by decide +kernel

end High
