import Verif.Proof.High.Facts

/-! # From solstice to solstice, and 25 months -/

open ShouXing

namespace High

theorem Row.Bd.gap {w : Row} {x j : ℕ} {u u' : ℚ} (h : w.Bd x u) (h' : w.Bd (x + j) u') :
    (w.b : ℚ) * j - 2 * w.r ≤ (u' - u) * 1000000 ∧ (u' - u) * 1000000 ≤ (w.b : ℚ) * j + 2 * w.r := by
  have a := abs_le.1 h
  have b := abs_le.1 h'
  push_cast at b
  constructor <;> linarith [a.1, a.2, b.1, b.2]

variable {M : Libm} (hM : M.Good)
include hM

/-- a year from winter solstice to winter solstice -/
theorem year_gap {Y : ℕ} (h1 : 1961 ≤ Y) (h2 : Y ≤ 9999) :
    (364.5 : ℚ) ≤ termU M (24 * ((Y + 1 : ℕ) - 2000) + 18) - termU M (24 * (Y - 2000) + 18) ∧
    termU M (24 * ((Y + 1 : ℕ) - 2000) + 18) - termU M (24 * (Y - 2000) + 18) ≤ 365.95 := by
  have key : ∀ {w : Row} {Y1 Y2 : ℕ}, SunRow M 18 w Y1 Y2 → Y1 ≤ Y → Y + 1 ≤ Y2 → 365240000 ≤ w.b → w.b ≤ 365243000 → w.r ≤ 340000 →
      (364.5 : ℚ) ≤ termU M (24 * ((Y + 1 : ℕ) - 2000) + 18) - termU M (24 * (Y - 2000) + 18) ∧
      termU M (24 * ((Y + 1 : ℕ) - 2000) + 18) - termU M (24 * (Y - 2000) + 18) ≤ 365.95 := by
    intro w Y1 Y2 r a b b1 b2 r1
    have g := Row.Bd.gap (r Y a (by omega)).1 (r (Y + 1) (by omega) b).1
    have b1' : (365240000 : ℚ) ≤ w.b := by exact_mod_cast b1
    have b2' : (w.b : ℚ) ≤ 365243000 := by exact_mod_cast b2
    have r1' : (w.r : ℚ) ≤ 340000 := by exact_mod_cast r1
    push_cast at g ⊢
    constructor <;> linarith [g.1, g.2]
  by_cases c0 : Y + 1 ≤ 2081
  · exact key (sunRow hM sunOk0 (i := 18) (Y1 := 1961) rfl (by norm_num) (by norm_num) (by norm_num)) (by omega) c0 (by decide) (by decide) (by decide)
  by_cases c1 : Y + 1 ≤ 2129
  · exact key (sunRow hM sunOk1 (i := 18) (Y1 := 2081) rfl (by norm_num) (by norm_num) (by norm_num)) (by omega) c1 (by decide) (by decide) (by decide)
  by_cases c2 : Y + 1 ≤ 2732
  · exact key (sunRow hM sunOk2 (i := 18) (Y1 := 2129) rfl (by norm_num) (by norm_num) (by norm_num)) (by omega) c2 (by decide) (by decide) (by decide)
  by_cases c3 : Y + 1 ≤ 3772
  · exact key (sunRow hM sunOk3 (i := 18) (Y1 := 2732) rfl (by norm_num) (by norm_num) (by norm_num)) (by omega) c3 (by decide) (by decide) (by decide)
  by_cases c4 : Y + 1 ≤ 4812
  · exact key (sunRow hM sunOk4 (i := 18) (Y1 := 3772) rfl (by norm_num) (by norm_num) (by norm_num)) (by omega) c4 (by decide) (by decide) (by decide)
  by_cases c5 : Y + 1 ≤ 5852
  · exact key (sunRow hM sunOk5 (i := 18) (Y1 := 4812) rfl (by norm_num) (by norm_num) (by norm_num)) (by omega) c5 (by decide) (by decide) (by decide)
  by_cases c6 : Y + 1 ≤ 6892
  · exact key (sunRow hM sunOk6 (i := 18) (Y1 := 5852) rfl (by norm_num) (by norm_num) (by norm_num)) (by omega) c6 (by decide) (by decide) (by decide)
  by_cases c7 : Y + 1 ≤ 7932
  · exact key (sunRow hM sunOk7 (i := 18) (Y1 := 6892) rfl (by norm_num) (by norm_num) (by norm_num)) (by omega) c7 (by decide) (by decide) (by decide)
  by_cases c8 : Y + 1 ≤ 8972
  · exact key (sunRow hM sunOk8 (i := 18) (Y1 := 7932) rfl (by norm_num) (by norm_num) (by norm_num)) (by omega) c8 (by decide) (by decide) (by decide)
  by_cases c9 : Y + 1 ≤ 10000
  · exact key (sunRow hM sunOk9 (i := 18) (Y1 := 8972) rfl (by norm_num) (by norm_num) (by norm_num)) (by omega) c9 (by decide) (by decide) (by decide)
  omega

/-- 25 months -/
theorem moon_gap {k : ℤ} (h1 : -500 ≤ k) (h2 : k + 25 ≤ 99000) : (734.5 : ℚ) ≤ moonU M (k + 25) - moonU M k := by
  obtain ⟨K, rfl⟩ : ∃ K : ℕ, k = (K : ℤ) - 1000 := ⟨(k + 1000).toNat, by omega⟩
  have key : ∀ {w : Row} {K1 K2 : ℕ}, MoonRow M w K1 K2 → K1 ≤ K → K + 25 ≤ K2 → 29530500 ≤ w.b → w.r ≤ 1750000 →
      (734.5 : ℚ) ≤ moonU M ((K : ℤ) - 1000 + 25) - moonU M (K - 1000) := by
    intro w K1 K2 r a b b1 r1
    have e := r (K + 25) (by omega) b
    rw [show ((K + 25 : ℕ) : ℤ) - 1000 = (K : ℤ) - 1000 + 25 by push_cast; ring] at e
    have g := Row.Bd.gap (r K a (by omega)) e
    have b1' : (29530500 : ℚ) ≤ w.b := by exact_mod_cast b1
    have r1' : (w.r : ℚ) ≤ 1750000 := by exact_mod_cast r1
    push_cast at g
    linarith [g.1]
  by_cases c0 : K + 25 ≤ 1500
  · exact key (moonRow hM moonOk0 (K1 := 500) (K2 := 1500) (by decide) (by decide) (by decide)) (by omega) c0 (by decide) (by decide)
  by_cases c1 : K + 25 ≤ 3486
  · exact key (moonRow hM moonOk1 (K1 := 986) (K2 := 3486) (by decide) (by decide) (by decide)) (by omega) c1 (by decide) (by decide)
  by_cases c2 : K + 25 ≤ 7710
  · exact key (moonRow hM moonOk2 (K1 := 1710) (K2 := 7710) (by decide) (by decide) (by decide)) (by omega) c2 (by decide) (by decide)
  by_cases c3 : K + 25 ≤ 19568
  · exact key (moonRow hM moonOk3 (K1 := 7168) (K2 := 19568) (by decide) (by decide) (by decide)) (by omega) c3 (by decide) (by decide)
  by_cases c4 : K + 25 ≤ 31937
  · exact key (moonRow hM moonOk4 (K1 := 19537) (K2 := 31937) (by decide) (by decide) (by decide)) (by omega) c4 (by decide) (by decide)
  by_cases c5 : K + 25 ≤ 44305
  · exact key (moonRow hM moonOk5 (K1 := 31905) (K2 := 44305) (by decide) (by decide) (by decide)) (by omega) c5 (by decide) (by decide)
  by_cases c6 : K + 25 ≤ 56674
  · exact key (moonRow hM moonOk6 (K1 := 44274) (K2 := 56674) (by decide) (by decide) (by decide)) (by omega) c6 (by decide) (by decide)
  by_cases c7 : K + 25 ≤ 69042
  · exact key (moonRow hM moonOk7 (K1 := 56642) (K2 := 69042) (by decide) (by decide) (by decide)) (by omega) c7 (by decide) (by decide)
  by_cases c8 : K + 25 ≤ 81411
  · exact key (moonRow hM moonOk8 (K1 := 69011) (K2 := 81411) (by decide) (by decide) (by decide)) (by omega) c8 (by decide) (by decide)
  by_cases c9 : K + 25 ≤ 93779
  · exact key (moonRow hM moonOk9 (K1 := 81379) (K2 := 93779) (by decide) (by decide) (by decide)) (by omega) c9 (by decide) (by decide)
  by_cases c10 : K + 25 ≤ 100000
  · exact key (moonRow hM moonOk10 (K1 := 93748) (K2 := 100000) (by decide) (by decide) (by decide)) (by omega) c10 (by decide) (by decide)
  omega

end High
