import Verif.Proof.Low.Year

/-! # The years from 1584 to 1961, generated by `tools/low.py` -/

open Aff0 ShouXing High

namespace Low

theorem accOk0 : blockOk (accOk (-352) 64 10000000) 0 (acc0.map (rowAt (-352))) = true := by decide +kernel

theorem instOk0 : instOk acc0 128 1584 = true := by decide +kernel

theorem accOk1 : blockOk (accOk (-224) 64 10000000) 0 (acc1.map (rowAt (-224))) = true := by decide +kernel

theorem instOk1 : instOk acc1 128 1712 = true := by decide +kernel

theorem accOk2 : blockOk (accOk (-96) 64 10000000) 0 (acc2.map (rowAt (-96))) = true := by decide +kernel

theorem instOk2 : instOk acc2 122 1840 = true := by decide +kernel

/-- the part of `LEAP_11` that matters -/
def l11 : List ℕ := [1593, 1612, 1631, 1642]

/-- the part of `LEAP_12` that matters -/
def l12 : List ℕ := []

theorem leaps : leapOk l11 l12 377 1584 = true := by decide +kernel

theorem years_1584 : allFrom (yearD l11 l12) 377 1584 = true := by decide +kernel

theorem years : allFrom (yearD l11 l12) 377 1584 = true := years_1584

theorem termNears_0 : allFrom termNear 9107 0 = true := by decide +kernel

theorem termNears : allFrom termNear 9107 0 = true := termNears_0

theorem moonNears_40 : allFrom moonNear 4696 40 = true := by decide +kernel

theorem moonNears : allFrom moonNear 4696 40 = true := moonNears_40

theorem moonGaps_40 : allFrom moonGap 4671 40 = true := by decide +kernel

theorem moonGaps : allFrom moonGap 4671 40 = true := moonGaps_40

theorem inst {M : Libm} (hM : M.Good) {Y : ℕ} (h1 : 1584 ≤ Y) (h2 : Y ≤ 1961) : Inst M Y := by
  by_cases c0 : Y < 1712
  · exact instOk_mem hM accOk0 instOk0 (by norm_num) (by norm_num) (by omega) (by omega)
  by_cases c1 : Y < 1840
  · exact instOk_mem hM accOk1 instOk1 (by norm_num) (by norm_num) (by omega) (by omega)
  by_cases c2 : Y < 1962
  · exact instOk_mem hM accOk2 instOk2 (by norm_num) (by norm_num) (by omega) (by omega)
  omega

end Low
