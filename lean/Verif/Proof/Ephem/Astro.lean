import Verif.Proof.Ephem.Bins
import Verif.Proof.High.Facts

/-! # The astronomical functions of the library, from 1961 on -/

namespace Ephem
open F64 LunarYear ShouXing FloatLike

theorem J2000_eq : ((J2000 : ℤ) : ℚ) = 2451545 := by norm_num [J2000]

/-- a number whose rounding is not large is near its rounding -/
theorem near_of_rnd {x : ℚ} (h : |rnd x| ≤ 7000000) : |rnd x - x| ≤ 1 / 10 ^ 9 := by
  apply rnd_near
  have h1 := abs_rnd_sub_le_rel x
  have h2 : |x| - |rnd x| ≤ |rnd x - x| := by rw [abs_sub_comm]; exact abs_sub_abs_le_abs_sub _ _
  have h3 : |x| * (1 / 2 ^ 53) ≤ |x| * (1 / 100) := mul_le_mul_of_nonneg_left (by norm_num) (abs_nonneg _)
  have h4 : |x| / 2 ^ 53 = |x| * (1 / 2 ^ 53) := by ring
  linarith

theorem calcQi_high {M : Libm} {n : ℤ} {x : ℚ} (h0 : -14609 ≤ x) (hx : x ≤ 3900000) (h : InBin n x) :
    calcQi M x = termDay M n := by
  have e := abs_le.1 (rnd_near (x := x + 2451545) (by rw [abs_le]; constructor <;> linarith))
  have e2 : (2436935 : ℚ) ≤ add x J2000 := by
    unfold add; rw [J2000_eq]; linarith [e.1]
  unfold calcQi
  simp only
  rw [if_pos (Or.inr e2), bin_calcQi (by rw [abs_le]; constructor <;> linarith) h]
  rfl

theorem calcShuo_high {M : Libm} {x : ℚ} (h0 : 2436935 ≤ rnd (x + 2451545)) (hx : |x| ≤ 3900000) :
    ∃ k : ℤ, calcShuo M x = moonDay M k ∧ 29.5306 * (k : ℚ) - 0.01 ≤ x + 8 ∧ x + 8 ≤ 29.5306 * ((k : ℚ) + 1) + 0.01 := by
  have e2 : (2436935 : ℚ) ≤ add x J2000 := by
    unfold add; rw [J2000_eq]; exact h0
  obtain ⟨k, h1, h2, h3⟩ := bin_calcShuo (x := x) hx
  refine ⟨k, ?_, h2, h3⟩
  unfold calcShuo
  simp only
  rw [if_pos (Or.inr e2), h1]
  rfl

theorem qiAccurate2_eq {M : Libm} {n : ℤ} {x : ℚ} (hx : |x| ≤ 3900000) (h : InBin n x) (ht : |termAt M n - x| ≤ 4.9) :
    qiAccurate2 M x = termAt M n := by
  have h1 := abs_le.1 ht
  have e := abs_le.1 (rnd_near (x := termAt M n - x) (by rw [abs_le]; constructor <;> linarith))
  unfold qiAccurate2
  simp only
  rw [bin_qiAccurate2 hx h]
  change (if sub (termAt M n) x > 5 then _ else if sub (termAt M n) x < -5 then _ else termAt M n) = _
  have h2 : sub (termAt M n) x = rnd (termAt M n - x) := rfl
  rw [if_neg (by rw [h2]; linarith [e.1, e.2]), if_neg (by rw [h2]; linarith [e.1, e.2])]

theorem termAt_near {M : Libm} {n : ℤ} (h : |termV M n| ≤ 7000000) : |termV M n - (termAt M n + 1 / 2)| ≤ 1 / 10 ^ 9 := by
  rw [termV_eq] at h ⊢
  exact near_of_rnd h

variable {M : Libm} (hM : M.Good)
include hM

theorem sun_at {n : ℤ} (h1 : 24 * (1961 - 2000) ≤ n) (h2 : n ≤ 24 * (10000 - 2000) + 23) :
    (15.218425 * (n : ℚ) - 290.7 ≤ termDay M n ∧ (termDay M n : ℚ) ≤ 15.218425 * n - 281.5) ∧
    (15.218425 * (n : ℚ) - 290.3 ≤ termAt M n ∧ termAt M n ≤ 15.218425 * n - 281.9) ∧ |termAt M n - termDay M n| ≤ 4 ∧
    ((termDay M n : ℚ) ≤ termU M n ∧ termU M n < termDay M n + 1) ∧ |termV M n - (termAt M n + 1 / 2)| ≤ 1 / 10 ^ 9 := by
  obtain ⟨Y, s, hs, hY1, hY2, rfl⟩ : ∃ Y s : ℕ, s < 24 ∧ 1961 ≤ Y ∧ Y ≤ 10000 ∧ n = 24 * ((Y : ℤ) - 2000) + s :=
    ⟨(2000 + n / 24).toNat, (n % 24).toNat, by omega, by omega, by omega, by omega⟩
  have F := High.sun_facts hM hY1 hY2
  have u := F.u s hs
  have v := F.v s hs
  have uv := abs_le.1 (F.uv s hs)
  have n1 : (24 * (1961 - 2000) : ℚ) ≤ ((24 * ((Y : ℤ) - 2000) + s : ℤ) : ℚ) := by exact_mod_cast h1
  have n2 : ((24 * ((Y : ℤ) - 2000) + s : ℤ) : ℚ) ≤ (24 * (10000 - 2000) + 23 : ℚ) := by exact_mod_cast h2
  rw [termDay_eq]
  have f1 := Int.floor_le (termU M (24 * ((Y : ℤ) - 2000) + s))
  have f2 := Int.lt_floor_add_one (termU M (24 * ((Y : ℤ) - 2000) + s))
  have w : |termV M (24 * ((Y : ℤ) - 2000) + s) - (termAt M (24 * ((Y : ℤ) - 2000) + s) + 1 / 2)| ≤ 1 / 10 ^ 9 := by
    apply termAt_near
    rw [abs_le]
    constructor <;> linarith [v.1, v.2]
  have w' := abs_le.1 w
  refine ⟨⟨by linarith, by linarith⟩, ⟨by linarith [w'.1, w'.2, v.1, v.2], by linarith [w'.1, w'.2, v.1, v.2]⟩, ?_, ⟨f1, f2⟩, w⟩
  rw [abs_le]
  constructor <;> linarith [w'.1, w'.2, uv.1, uv.2]

theorem moon_at {k : ℤ} (h1 : -500 ≤ k) (h2 : k ≤ 99000) :
    29.5306 * (k : ℚ) + 0.6 ≤ moonDay M k ∧ (moonDay M k : ℚ) ≤ 29.5306 * k + 7.4 := by
  have u := High.moon_crude hM h1 h2
  rw [moonDay_eq]
  have f1 := Int.floor_le (moonU M k)
  have f2 := Int.lt_floor_add_one (moonU M k)
  constructor <;> linarith [u.1, u.2]

end Ephem
