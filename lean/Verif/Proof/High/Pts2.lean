import Verif.Proof.High.Data

/-! # Exceptional years: the days are right (part 2), generated by `tools/high.py` -/

namespace High

theorem excOk84 : exc84.all excOk = true := by decide +kernel
theorem excOk85 : exc85.all excOk = true := by decide +kernel
theorem excOk86 : exc86.all excOk = true := by decide +kernel
theorem excOk87 : exc87.all excOk = true := by decide +kernel
theorem excOk88 : exc88.all excOk = true := by decide +kernel
theorem excOk89 : exc89.all excOk = true := by decide +kernel
theorem excOk90 : exc90.all excOk = true := by decide +kernel
theorem excOk91 : exc91.all excOk = true := by decide +kernel
theorem excOk92 : exc92.all excOk = true := by decide +kernel
theorem excOk93 : exc93.all excOk = true := by decide +kernel
theorem excOk94 : exc94.all excOk = true := by decide +kernel
theorem excOk95 : exc95.all excOk = true := by decide +kernel
theorem excOk96 : exc96.all excOk = true := by decide +kernel
theorem excOk97 : exc97.all excOk = true := by decide +kernel
theorem excOk98 : exc98.all excOk = true := by decide +kernel
theorem excOk99 : exc99.all excOk = true := by decide +kernel
theorem excOk100 : exc100.all excOk = true := by decide +kernel
theorem excOk101 : exc101.all excOk = true := by decide +kernel
theorem excOk102 : exc102.all excOk = true := by decide +kernel
theorem excOk103 : exc103.all excOk = true := by decide +kernel
theorem excOk104 : exc104.all excOk = true := by decide +kernel
theorem excOk105 : exc105.all excOk = true := by decide +kernel
theorem excOk106 : exc106.all excOk = true := by decide +kernel
theorem excOk107 : exc107.all excOk = true := by decide +kernel
theorem excOk108 : exc108.all excOk = true := by decide +kernel
theorem excOk109 : exc109.all excOk = true := by decide +kernel
theorem excOk110 : exc110.all excOk = true := by decide +kernel
theorem excOk111 : exc111.all excOk = true := by decide +kernel
theorem excOk112 : exc112.all excOk = true := by decide +kernel
theorem excOk113 : exc113.all excOk = true := by decide +kernel
theorem excOk114 : exc114.all excOk = true := by decide +kernel
theorem excOk115 : exc115.all excOk = true := by decide +kernel
theorem excOk116 : exc116.all excOk = true := by decide +kernel
theorem excOk117 : exc117.all excOk = true := by decide +kernel
theorem excOk118 : exc118.all excOk = true := by decide +kernel
theorem excOk119 : exc119.all excOk = true := by decide +kernel
theorem excOk120 : exc120.all excOk = true := by decide +kernel
theorem excOk121 : exc121.all excOk = true := by decide +kernel
theorem excOk122 : exc122.all excOk = true := by decide +kernel

end High
