import Verif.Proof.High.Data

/-! # Exceptional years: the days are right (part 0), generated by `tools/high.py` -/

namespace High

theorem excOk0 : exc0.all excOk = true := by decide +kernel
theorem excOk1 : exc1.all excOk = true := by decide +kernel
theorem excOk2 : exc2.all excOk = true := by decide +kernel
theorem excOk3 : exc3.all excOk = true := by decide +kernel
theorem excOk4 : exc4.all excOk = true := by decide +kernel
theorem excOk5 : exc5.all excOk = true := by decide +kernel
theorem excOk6 : exc6.all excOk = true := by decide +kernel
theorem excOk7 : exc7.all excOk = true := by decide +kernel
theorem excOk8 : exc8.all excOk = true := by decide +kernel
theorem excOk9 : exc9.all excOk = true := by decide +kernel
theorem excOk10 : exc10.all excOk = true := by decide +kernel
theorem excOk11 : exc11.all excOk = true := by decide +kernel
theorem excOk12 : exc12.all excOk = true := by decide +kernel
theorem excOk13 : exc13.all excOk = true := by decide +kernel
theorem excOk14 : exc14.all excOk = true := by decide +kernel
theorem excOk15 : exc15.all excOk = true := by decide +kernel
theorem excOk16 : exc16.all excOk = true := by decide +kernel
theorem excOk17 : exc17.all excOk = true := by decide +kernel
theorem excOk18 : exc18.all excOk = true := by decide +kernel
theorem excOk19 : exc19.all excOk = true := by decide +kernel
theorem excOk20 : exc20.all excOk = true := by decide +kernel
theorem excOk21 : exc21.all excOk = true := by decide +kernel
theorem excOk22 : exc22.all excOk = true := by decide +kernel
theorem excOk23 : exc23.all excOk = true := by decide +kernel
theorem excOk24 : exc24.all excOk = true := by decide +kernel
theorem excOk25 : exc25.all excOk = true := by decide +kernel
theorem excOk26 : exc26.all excOk = true := by decide +kernel
theorem excOk27 : exc27.all excOk = true := by decide +kernel
theorem excOk28 : exc28.all excOk = true := by decide +kernel
theorem excOk29 : exc29.all excOk = true := by decide +kernel
theorem excOk30 : exc30.all excOk = true := by decide +kernel
theorem excOk31 : exc31.all excOk = true := by decide +kernel
theorem excOk32 : exc32.all excOk = true := by decide +kernel
theorem excOk33 : exc33.all excOk = true := by decide +kernel
theorem excOk34 : exc34.all excOk = true := by decide +kernel
theorem excOk35 : exc35.all excOk = true := by decide +kernel
theorem excOk36 : exc36.all excOk = true := by decide +kernel
theorem excOk37 : exc37.all excOk = true := by decide +kernel
theorem excOk38 : exc38.all excOk = true := by decide +kernel
theorem excOk39 : exc39.all excOk = true := by decide +kernel
theorem excOk40 : exc40.all excOk = true := by decide +kernel
theorem excOk41 : exc41.all excOk = true := by decide +kernel
theorem excOk42 : exc42.all excOk = true := by decide +kernel
theorem excOk43 : exc43.all excOk = true := by decide +kernel

end High
