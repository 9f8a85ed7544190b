import Verif.Model.ShouXing
import Verif.Proof.F64
import Verif.Proof.Blocks

/-! # Which term and which month `calcQi`, `calcShuo`, `qiAccurate2` look at -/

namespace Ephem
open F64 ShouXing

theorem rnd_near {x : ℚ} (h : |x| ≤ 8000000) : |rnd x - x| ≤ 1 / 10 ^ 9 := by
  refine (abs_rnd_sub_le h).trans ?_
  norm_num

theorem rnd_tiny {x : ℚ} (h : |x| ≤ 400000) : |rnd x - x| ≤ 1 / 10 ^ 10 := by
  refine (abs_rnd_sub_le h).trans ?_
  norm_num

theorem c365_near : |LunarYear.c365 - 365.2422| ≤ 1 / 10 ^ 13 := by
  have := abs_rnd_sub_le (x := 3652422 / 10000) (B := 400) (by rw [abs_le]; constructor <;> norm_num)
  unfold LunarYear.c365
  refine le_trans (le_of_eq ?_) (this.trans (by norm_num))
  norm_num

theorem c295306_near : |LunarYear.c295306 - 29.5306| ≤ 1 / 10 ^ 13 := by
  have := abs_rnd_sub_le (x := 295306 / 10000) (B := 400) (by rw [abs_le]; constructor <;> norm_num)
  unfold LunarYear.c295306
  refine le_trans (le_of_eq ?_) (this.trans (by norm_num))
  norm_num

theorem c2953_near : |LunarYear.c2953 - 29.53| ≤ 1 / 10 ^ 13 := by
  have := abs_rnd_sub_le (x := 2953 / 100) (B := 400) (by rw [abs_le]; constructor <;> norm_num)
  unfold LunarYear.c2953
  refine le_trans (le_of_eq ?_) (this.trans (by norm_num))
  norm_num

theorem c15_near : |LunarYear.c15 - 15.2184| ≤ 1 / 10 ^ 13 := by
  have := abs_rnd_sub_le (x := 152184 / 10000) (B := 400) (by rw [abs_le]; constructor <;> norm_num)
  unfold LunarYear.c15
  refine le_trans (le_of_eq ?_) (this.trans (by norm_num))
  norm_num

/-- `x` is in bin `n` of the solar terms, not too close to the borders -/
def InBin (n : ℤ) (x : ℚ) : Prop := 15.218425 * n + 0.01 ≤ x + 293 ∧ x + 293 ≤ 15.218425 * (n + 1) - 0.01

theorem floor24 {y : ℚ} {n : ℤ} (hy : |y| ≤ 4000000) (h1 : 15.218425 * n + 0.009 ≤ y) (h2 : y ≤ 15.218425 * (n + 1) - 0.009) :
    ⌊mul (div y LunarYear.c365) 24⌋ = n := by
  have hc := abs_le.1 c365_near
  generalize LunarYear.c365 = c at hc
  obtain ⟨hy1, hy2⟩ := abs_le.1 hy
  have hc0 : 0 < c := by linarith
  have hq : |y / c| ≤ 12000 := by
    rw [abs_div, abs_of_pos hc0, div_le_iff₀ hc0]
    linarith
  have e1 := abs_le.1 (rnd_tiny (hq.trans (by norm_num)))
  have hn1 : (n : ℚ) ≤ 300000 := by linarith
  have hn2 : (-300000 : ℚ) ≤ n := by linarith
  change |y / c| ≤ 12000 at hq
  obtain ⟨hq1, hq2⟩ := abs_le.1 hq
  have b1 : (n + 0.0002) / 24 ≤ y / c := by
    rw [le_div_iff₀ hc0]
    nlinarith
  have b2 : y / c ≤ (n + 1 - 0.0002) / 24 := by
    rw [div_le_iff₀ hc0]
    nlinarith
  unfold mul div
  have e2 := abs_le.1 (rnd_tiny (x := rnd (y / c) * 24) (by rw [abs_le]; constructor <;> linarith [e1.1, e1.2]))
  rw [Int.floor_eq_iff]
  constructor <;> linarith [e1.1, e1.2, e2.1, e2.2]

theorem bin_calcQi {n : ℤ} {x : ℚ} (hx : |x| ≤ 3900000) (h : InBin n x) :
    ⌊mul (div (sub (add (add x LunarYear.J2000) 7) 2451259) LunarYear.c365) 24⌋ = n := by
  unfold InBin at h
  obtain ⟨x1, x2⟩ := abs_le.1 hx
  have hJ : ((LunarYear.J2000 : ℤ) : ℚ) = 2451545 := by norm_num [LunarYear.J2000]
  have e1 := abs_le.1 (rnd_near (x := x + LunarYear.J2000) (by rw [hJ, abs_le]; constructor <;> linarith))
  rw [hJ] at e1
  have e2 := abs_le.1 (rnd_near (x := rnd (x + LunarYear.J2000) + 7) (by rw [hJ, abs_le]; constructor <;> linarith [e1.1, e1.2]))
  rw [hJ] at e2
  have e3 := abs_le.1 (rnd_near (x := rnd (rnd (x + LunarYear.J2000) + 7) - 2451259)
    (by rw [hJ, abs_le]; constructor <;> linarith [e1.1, e1.2, e2.1, e2.2]))
  rw [hJ] at e3
  unfold add sub
  rw [hJ]
  apply floor24
  · rw [abs_le]; constructor <;> linarith [e1.1, e1.2, e2.1, e2.2, e3.1, e3.2]
  · linarith [e1.1, e1.2, e2.1, e2.2, e3.1, e3.2, h.1]
  · linarith [e1.1, e1.2, e2.1, e2.2, e3.1, e3.2, h.2]

theorem bin_qiAccurate2 {n : ℤ} {x : ℚ} (hx : |x| ≤ 3900000) (h : InBin n x) :
    ⌊mul (div (add x 293) LunarYear.c365) 24⌋ = n := by
  unfold InBin at h
  obtain ⟨x1, x2⟩ := abs_le.1 hx
  have e1 := abs_le.1 (rnd_near (x := x + 293) (by rw [abs_le]; constructor <;> linarith))
  unfold add
  apply floor24
  · rw [abs_le]; constructor <;> linarith [e1.1, e1.2]
  · linarith [e1.1, e1.2, h.1]
  · linarith [e1.1, e1.2, h.2]

/-- the month that `calcShuo x` looks at, about -/
theorem bin_calcShuo {x : ℚ} (hx : |x| ≤ 3900000) :
    ∃ k : ℤ, ⌊div (sub (add (add x LunarYear.J2000) 14) 2451551) LunarYear.c295306⌋ = k ∧
      29.5306 * k - 0.01 ≤ x + 8 ∧ x + 8 ≤ 29.5306 * (k + 1) + 0.01 := by
  obtain ⟨x1, x2⟩ := abs_le.1 hx
  have hJ : ((LunarYear.J2000 : ℤ) : ℚ) = 2451545 := by norm_num [LunarYear.J2000]
  have e1 := abs_le.1 (rnd_near (x := x + LunarYear.J2000) (by rw [hJ, abs_le]; constructor <;> linarith))
  rw [hJ] at e1
  have e2 := abs_le.1 (rnd_near (x := rnd (x + LunarYear.J2000) + 14) (by rw [hJ, abs_le]; constructor <;> linarith [e1.1, e1.2]))
  rw [hJ] at e2
  have e3 := abs_le.1 (rnd_near (x := rnd (rnd (x + LunarYear.J2000) + 14) - 2451551)
    (by rw [hJ, abs_le]; constructor <;> linarith [e1.1, e1.2, e2.1, e2.2]))
  rw [hJ] at e3
  refine ⟨_, rfl, ?_⟩
  unfold add sub div
  rw [hJ]
  have hc := abs_le.1 c295306_near
  generalize LunarYear.c295306 = c at hc
  have hc0 : 0 < c := by linarith
  generalize rnd (rnd (rnd (x + 2451545) + 14) - 2451551) = y at *
  have hy1 : -4000000 ≤ y := by linarith [e1.1, e1.2, e2.1, e2.2, e3.1, e3.2]
  have hy2 : y ≤ 4000000 := by linarith [e1.1, e1.2, e2.1, e2.2, e3.1, e3.2]
  have hq : |y / c| ≤ 400000 := by
    rw [abs_div, abs_of_pos hc0, div_le_iff₀ hc0, abs_le]
    constructor <;> linarith
  have e4 := abs_le.1 (rnd_tiny hq)
  have f1 := Int.floor_le (rnd (y / c))
  have f2 := Int.lt_floor_add_one (rnd (y / c))
  generalize ⌊rnd (y / c)⌋ = k at f1 f2
  obtain ⟨hq1, hq2⟩ := abs_le.1 hq
  have g : y / c * c = y := div_mul_cancel₀ _ hc0.ne'
  generalize y / c = q at *
  have a1 : (q - (k - 1 / 10 ^ 10)) * c ≥ 0 := mul_nonneg (by linarith) hc0.le
  have a2 : ((k + 1 + 1 / 10 ^ 10) - q) * c ≥ 0 := mul_nonneg (by linarith) hc0.le
  have hk1 : (-400002 : ℚ) ≤ k := by linarith
  have hk2 : (k : ℚ) ≤ 400001 := by linarith
  constructor
  · nlinarith [e1.1, e1.2, e2.1, e2.2, e3.1, e3.2]
  · nlinarith [e1.1, e1.2, e2.1, e2.2, e3.1, e3.2]

end Ephem
