import Verif.Proof.High.Data

/-! # Exceptional years: the days are right (part 3), generated by `tools/high.py` -/

namespace High

theorem excOk123 : exc123.all excOk = true := by decide +kernel
theorem excOk124 : exc124.all excOk = true := by decide +kernel
theorem excOk125 : exc125.all excOk = true := by decide +kernel
theorem excOk126 : exc126.all excOk = true := by decide +kernel
theorem excOk127 : exc127.all excOk = true := by decide +kernel
theorem excOk128 : exc128.all excOk = true := by decide +kernel
theorem excOk129 : exc129.all excOk = true := by decide +kernel
theorem excOk130 : exc130.all excOk = true := by decide +kernel
theorem excOk131 : exc131.all excOk = true := by decide +kernel
theorem excOk132 : exc132.all excOk = true := by decide +kernel
theorem excOk133 : exc133.all excOk = true := by decide +kernel
theorem excOk134 : exc134.all excOk = true := by decide +kernel
theorem excOk135 : exc135.all excOk = true := by decide +kernel
theorem excOk136 : exc136.all excOk = true := by decide +kernel
theorem excOk137 : exc137.all excOk = true := by decide +kernel
theorem excOk138 : exc138.all excOk = true := by decide +kernel
theorem excOk139 : exc139.all excOk = true := by decide +kernel
theorem excOk140 : exc140.all excOk = true := by decide +kernel
theorem excOk141 : exc141.all excOk = true := by decide +kernel
theorem excOk142 : exc142.all excOk = true := by decide +kernel
theorem excOk143 : exc143.all excOk = true := by decide +kernel
theorem excOk144 : exc144.all excOk = true := by decide +kernel
theorem excOk145 : exc145.all excOk = true := by decide +kernel
theorem excOk146 : exc146.all excOk = true := by decide +kernel
theorem excOk147 : exc147.all excOk = true := by decide +kernel
theorem excOk148 : exc148.all excOk = true := by decide +kernel
theorem excOk149 : exc149.all excOk = true := by decide +kernel
theorem excOk150 : exc150.all excOk = true := by decide +kernel
theorem excOk151 : exc151.all excOk = true := by decide +kernel
theorem excOk152 : exc152.all excOk = true := by decide +kernel
theorem excOk153 : exc153.all excOk = true := by decide +kernel
theorem excOk154 : exc154.all excOk = true := by decide +kernel
theorem excOk155 : exc155.all excOk = true := by decide +kernel
theorem excOk156 : exc156.all excOk = true := by decide +kernel
theorem excOk157 : exc157.all excOk = true := by decide +kernel
theorem excOk158 : exc158.all excOk = true := by decide +kernel
theorem excOk159 : exc159.all excOk = true := by decide +kernel
theorem excOk160 : exc160.all excOk = true := by decide +kernel
theorem excOk161 : exc161.all excOk = true := by decide +kernel

end High
