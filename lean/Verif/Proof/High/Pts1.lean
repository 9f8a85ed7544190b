import Verif.Proof.High.Data

/-! # Exceptional years: the days are right (part 1), generated by `tools/high.py` -/

namespace High

theorem excOk44 : exc44.all excOk = true := by decide +kernel
theorem excOk45 : exc45.all excOk = true := by decide +kernel
theorem excOk46 : exc46.all excOk = true := by decide +kernel
theorem excOk47 : exc47.all excOk = true := by decide +kernel
theorem excOk48 : exc48.all excOk = true := by decide +kernel
theorem excOk49 : exc49.all excOk = true := by decide +kernel
theorem excOk50 : exc50.all excOk = true := by decide +kernel
theorem excOk51 : exc51.all excOk = true := by decide +kernel
theorem excOk52 : exc52.all excOk = true := by decide +kernel
theorem excOk53 : exc53.all excOk = true := by decide +kernel
theorem excOk54 : exc54.all excOk = true := by decide +kernel
theorem excOk55 : exc55.all excOk = true := by decide +kernel
theorem excOk56 : exc56.all excOk = true := by decide +kernel
theorem excOk57 : exc57.all excOk = true := by decide +kernel
theorem excOk58 : exc58.all excOk = true := by decide +kernel
theorem excOk59 : exc59.all excOk = true := by decide +kernel
theorem excOk60 : exc60.all excOk = true := by decide +kernel
theorem excOk61 : exc61.all excOk = true := by decide +kernel
theorem excOk62 : exc62.all excOk = true := by decide +kernel
theorem excOk63 : exc63.all excOk = true := by decide +kernel
theorem excOk64 : exc64.all excOk = true := by decide +kernel
theorem excOk65 : exc65.all excOk = true := by decide +kernel
theorem excOk66 : exc66.all excOk = true := by decide +kernel
theorem excOk67 : exc67.all excOk = true := by decide +kernel
theorem excOk68 : exc68.all excOk = true := by decide +kernel
theorem excOk69 : exc69.all excOk = true := by decide +kernel
theorem excOk70 : exc70.all excOk = true := by decide +kernel
theorem excOk71 : exc71.all excOk = true := by decide +kernel
theorem excOk72 : exc72.all excOk = true := by decide +kernel
theorem excOk73 : exc73.all excOk = true := by decide +kernel
theorem excOk74 : exc74.all excOk = true := by decide +kernel
theorem excOk75 : exc75.all excOk = true := by decide +kernel
theorem excOk76 : exc76.all excOk = true := by decide +kernel
theorem excOk77 : exc77.all excOk = true := by decide +kernel
theorem excOk78 : exc78.all excOk = true := by decide +kernel
theorem excOk79 : exc79.all excOk = true := by decide +kernel
theorem excOk80 : exc80.all excOk = true := by decide +kernel
theorem excOk81 : exc81.all excOk = true := by decide +kernel
theorem excOk82 : exc82.all excOk = true := by decide +kernel
theorem excOk83 : exc83.all excOk = true := by decide +kernel

end High
