import Verif.Proof.Ephem.Range

/-! # From the summer solstice to the beginning of autumn

The three terms between them are fewer than the crude bounds of `Bins` can tell apart from a decade more or less; here the
lines of `Proof/High/Data.lean` and `Proof/Low/Data.lean` are compared. -/

open ShouXing High

namespace Ephem

/-- the rows of terms 6 and 9 are 45.7 days apart, give or take 2.3 days -/
def summerOk (ws : List Row) (Y1 Y2 : ℕ) : Bool :=
  match ws[6]?, ws[9]? with
  | some a, some b => pairOk a b 3 Y1 Y2
  | _, _ => false

theorem summer0 : summerOk sun0 1961 2081 = true := by decide +kernel
theorem summer1 : summerOk sun1 2081 2129 = true := by decide +kernel
theorem summer2 : summerOk sun2 2129 2732 = true := by decide +kernel
theorem summer3 : summerOk sun3 2732 3772 = true := by decide +kernel
theorem summer4 : summerOk sun4 3772 4812 = true := by decide +kernel
theorem summer5 : summerOk sun5 4812 5852 = true := by decide +kernel
theorem summer6 : summerOk sun6 5852 6892 = true := by decide +kernel
theorem summerLow0 : summerOk Low.acc0 1584 1712 = true := by decide +kernel
theorem summerLow1 : summerOk Low.acc1 1712 1840 = true := by decide +kernel
theorem summerLow2 : summerOk Low.acc2 1840 1962 = true := by decide +kernel

theorem summerOk_get {ws : List Row} {Y1 Y2 : ℕ} (H : summerOk ws Y1 Y2 = true) :
    ∃ a b, ws[6]? = some a ∧ ws[9]? = some b ∧ pairOk a b 3 Y1 Y2 = true := by
  unfold summerOk at H
  split at H
  · next a b ha hb => exact ⟨a, b, ha, hb, H⟩
  · cases H

variable {M : Libm} (hM : M.Good)
include hM

theorem summer_high {c : ℤ} {h θ : ℕ} {ws : List Row} (H : Block.sunBlockOk c h θ 0 (ws.map (rowAt c)) = true)
    {Y1 Y2 : ℕ} (S : summerOk ws Y1 Y2 = true) {Y : ℕ} (h1 : c + 2000 - h ≤ Y1) (h2 : (Y2 : ℤ) ≤ c + 2000 + h) (h3 : Y2 ≤ 20000)
    (a1 : Y1 ≤ Y) (a2 : Y ≤ Y2) : |termV M (24 * (Y - 2000) + 9) - termV M (24 * (Y - 2000) + 6) - 15.2184 * (3 : ℤ)| ≤ 2.3 := by
  obtain ⟨a, b, ha, hb, hp⟩ := summerOk_get S
  exact pairOk_mem hp a1 a2 (sunRow hM H ha h1 h2 ⟨h3, by norm_num⟩ Y a1 a2).2 (sunRow hM H hb h1 h2 ⟨h3, by norm_num⟩ Y a1 a2).2

theorem summer_low {c : ℤ} {h θ : ℕ} {ws : List Row} (H : Low.blockOk (Low.accOk c h θ) 0 (ws.map (rowAt c)) = true)
    {Y1 Y2 : ℕ} (S : summerOk ws Y1 Y2 = true) {Y : ℕ} (h1 : c + 2000 - h ≤ Y1) (h2 : (Y2 : ℤ) ≤ c + 2000 + h) (h3 : Y2 ≤ 20000)
    (a1 : Y1 ≤ Y) (a2 : Y ≤ Y2) : |termV M (24 * (Y - 2000) + 9) - termV M (24 * (Y - 2000) + 6) - 15.2184 * (3 : ℤ)| ≤ 2.3 := by
  obtain ⟨a, b, ha, hb, hp⟩ := summerOk_get S
  exact pairOk_mem hp a1 a2 (Low.rowOf (u := termV M) (fun {y s A B R} a b => Low.acc_mem hM a b) H ha h1 h2 ⟨h3, by norm_num⟩ Y a1 a2)
    (Low.rowOf (u := termV M) (fun {y s A B R} a b => Low.acc_mem hM a b) H hb h1 h2 ⟨h3, by norm_num⟩ Y a1 a2)

theorem summer_v {Y : ℕ} (h1 : 1584 ≤ Y) (h2 : Y ≤ 6892) :
    |termV M (24 * (Y - 2000) + 9) - termV M (24 * (Y - 2000) + 6) - 15.2184 * (3 : ℤ)| ≤ 2.3 := by
  by_cases l0 : Y ≤ 1712
  · exact summer_low hM Low.accOk0 summerLow0 (by norm_num) (by norm_num) (by norm_num) h1 l0
  by_cases l1 : Y ≤ 1840
  · exact summer_low hM Low.accOk1 summerLow1 (by norm_num) (by norm_num) (by norm_num) (by omega) l1
  by_cases l2 : Y ≤ 1962
  · exact summer_low hM Low.accOk2 summerLow2 (by norm_num) (by norm_num) (by norm_num) (by omega) l2
  by_cases c0 : Y ≤ 2081
  · exact summer_high hM sunOk0 summer0 (by norm_num) (by norm_num) (by norm_num) (by omega) c0
  by_cases c1 : Y ≤ 2129
  · exact summer_high hM sunOk1 summer1 (by norm_num) (by norm_num) (by norm_num) (by omega) c1
  by_cases c2 : Y ≤ 2732
  · exact summer_high hM sunOk2 summer2 (by norm_num) (by norm_num) (by norm_num) (by omega) c2
  by_cases c3 : Y ≤ 3772
  · exact summer_high hM sunOk3 summer3 (by norm_num) (by norm_num) (by norm_num) (by omega) c3
  by_cases c4 : Y ≤ 4812
  · exact summer_high hM sunOk4 summer4 (by norm_num) (by norm_num) (by norm_num) (by omega) c4
  by_cases c5 : Y ≤ 5852
  · exact summer_high hM sunOk5 summer5 (by norm_num) (by norm_num) (by norm_num) (by omega) c5
  · exact summer_high hM sunOk6 summer6 (by norm_num) (by norm_num) (by norm_num) (by omega) h2

end Ephem
