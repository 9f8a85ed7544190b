import Verif.Proof.Lunation.Year
import Verif.Proof.Lunation.Table

/-! # The length of the lunar years the library finds -/

open Aff0 ShouXing Low Ephem LunarYear

namespace Lunation

/-- twelve months of the tables of `Proof/Low` from month `j` on have 353 to 355 days, thirteen have 383 to 385 -/
def moonLen13 (j : ℕ) : Bool :=
  forceN (moonJD j) fun a => forceN (Nat.sub (moonJD (Nat.add j 12)) a) fun d => forceN (Nat.sub (moonJD (Nat.add j 13)) a) fun e =>
    Nat.ble 353 d && Nat.ble d 355 && Nat.ble 383 e && Nat.ble e 385

theorem moonLens13 : allFrom moonLen13 4680 40 = true := by decide +kernel

variable {M : Libm} (hM : M.Good)
include hM

private theorem floors {a b : ℚ} {p q : ℤ} (h1 : (p : ℚ) ≤ b - a) (h2 : b - a ≤ (q : ℚ)) : p ≤ ⌊b⌋ - ⌊a⌋ ∧ ⌊b⌋ - ⌊a⌋ ≤ q := by
  have f1 := Int.floor_le a
  have f2 := Int.lt_floor_add_one a
  have g1 := Int.floor_le b
  have g2 := Int.lt_floor_add_one b
  have c1 : ((p - 1 : ℤ) : ℚ) < ((⌊b⌋ - ⌊a⌋ : ℤ) : ℚ) := by push_cast; linarith
  have c2 : ((⌊b⌋ - ⌊a⌋ : ℤ) : ℚ) < ((q + 1 : ℤ) : ℚ) := by push_cast; linarith
  have c1 := Int.cast_lt.1 c1
  have c2 := Int.cast_lt.1 c2
  omega

/-- twelve new moons -/
theorem moon_twelve {k : ℤ} (h0 : -490 ≤ k) (h1 : k + 12 ≤ 37150) : (353 : ℚ) ≤ moonU M (k + 12) - moonU M k ∧ moonU M (k + 12) - moonU M k ≤ 355 := by
  obtain ⟨T, x, a1, a2, a3, a4, a5, a6, a7⟩ := moon_form hM h0 (by linarith : k ≤ 37150)
  obtain ⟨T', x', b1, b2, b3, b4, b5, b6, b7⟩ := moon_form hM (by linarith : -490 ≤ k + 12) h1
  have w := abs_le.1 (arg_near (M := M) (k := k) (by rw [abs_le]; constructor <;> linarith))
  have w' := abs_le.1 (arg_near (M := M) (k := k + 12) (by rw [abs_le]; constructor <;> linarith))
  push_cast at w'
  obtain ⟨m1, m2⟩ := year12 (k := k) a1 a2 b1 b2 (w := ((shuoArg (int k) : Fl M).v : ℝ)) (w' := ((shuoArg (int (k + 12)) : Fl M).v : ℝ))
    (by rw [abs_le]; constructor <;> linarith) (by rw [abs_le]; constructor <;> linarith) a3 b3
  have p1 := Real.pi_gt_d6
  have p2 := Real.pi_lt_d6
  unfold v0 at m1 m2
  have d1 : 353.003 ≤ 36525 * (T' - T) := by linarith
  have d2 : 36525 * (T' - T) ≤ 354.998 := by linarith
  have a4 := abs_le.1 a4
  have b4 := abs_le.1 b4
  have c := abs_le.1 (dtT_change (x := x) (x' := x') a5 (by linarith) (by linarith) b6)
  have a7 := abs_le.1 a7
  have b7 := abs_le.1 b7
  have r1 : (353 : ℝ) ≤ (moonU M (k + 12) : ℝ) - (moonU M k : ℝ) := by linarith
  have r2 : (moonU M (k + 12) : ℝ) - (moonU M k : ℝ) ≤ 355 := by linarith
  exact ⟨by exact_mod_cast r1, by exact_mod_cast r2⟩

/-- thirteen new moons -/
theorem moon_thirteen {k : ℤ} (h0 : -490 ≤ k) (h1 : k + 13 ≤ 37150) : (383 : ℚ) ≤ moonU M (k + 13) - moonU M k ∧ moonU M (k + 13) - moonU M k ≤ 385 := by
  obtain ⟨T, x, a1, a2, a3, a4, a5, a6, a7⟩ := moon_form hM h0 (by linarith : k ≤ 37150)
  obtain ⟨T', x', b1, b2, b3, b4, b5, b6, b7⟩ := moon_form hM (by linarith : -490 ≤ k + 13) h1
  have w := abs_le.1 (arg_near (M := M) (k := k) (by rw [abs_le]; constructor <;> linarith))
  have w' := abs_le.1 (arg_near (M := M) (k := k + 13) (by rw [abs_le]; constructor <;> linarith))
  push_cast at w'
  obtain ⟨m1, m2⟩ := year13 a1 a2 b1 b2 (w := ((shuoArg (int k) : Fl M).v : ℝ)) (w' := ((shuoArg (int (k + 13)) : Fl M).v : ℝ))
    (by rw [abs_le]; constructor <;> linarith) a3 b3
  have p1 := Real.pi_gt_d6
  have p2 := Real.pi_lt_d6
  unfold v0 at m1 m2
  have d1 : 383.003 ≤ 36525 * (T' - T) := by linarith
  have d2 : 36525 * (T' - T) ≤ 384.998 := by linarith
  have a4 := abs_le.1 a4
  have b4 := abs_le.1 b4
  have c := abs_le.1 (dtT_change (x := x) (x' := x') a5 (by linarith) (by linarith) b6)
  have a7 := abs_le.1 a7
  have b7 := abs_le.1 b7
  have r1 : (383 : ℝ) ≤ (moonU M (k + 13) : ℝ) - (moonU M k : ℝ) := by linarith
  have r2 : (moonU M (k + 13) : ℝ) - (moonU M k : ℝ) ≤ 385 := by linarith
  exact ⟨by exact_mod_cast r1, by exact_mod_cast r2⟩

/-- the first days of a month and of the twelfth and thirteenth after it -/
theorem dayN_year {k : ℤ} (h0 : -5160 ≤ k) (h1 : k + 13 ≤ 37150) :
    (353 ≤ dayN M (k + 12) - dayN M k ∧ dayN M (k + 12) - dayN M k ≤ 355) ∧ 383 ≤ dayN M (k + 13) - dayN M k ∧ dayN M (k + 13) - dayN M k ≤ 385 := by
  by_cases c : -490 ≤ k
  · rw [dayN_high hM (by omega), dayN_high hM (by omega), dayN_high hM (by omega), moonDay_eq, moonDay_eq, moonDay_eq]
    obtain ⟨a, b⟩ := moon_twelve hM c (by omega)
    obtain ⟨a', b'⟩ := moon_thirteen hM c h1
    exact ⟨floors hM (by exact_mod_cast a) (by exact_mod_cast b), floors hM (by exact_mod_cast a') (by exact_mod_cast b')⟩
  · obtain ⟨j, rfl⟩ : ∃ j : ℕ, k = (j : ℤ) - 5200 := ⟨(k + 5200).toNat, by omega⟩
    have h := allFrom_get moonLens13 (x := j) (by omega) (by omega)
    unfold moonLen13 at h
    simp only [forceN_eq, Bool.and_eq_true, Nat.ble_eq] at h
    rw [show ((j : ℤ) - 5200 + 12) = ((j + 12 : ℕ) : ℤ) - 5200 by push_cast; ring,
      show ((j : ℤ) - 5200 + 13) = ((j + 13 : ℕ) : ℤ) - 5200 by push_cast; ring,
      dayN_table hM (by omega), dayN_table hM (by omega), dayN_table hM (by omega)]
    change ((353 ≤ moonJD (j + 12) - moonJD j ∧ moonJD (j + 12) - moonJD j ≤ 355) ∧ 383 ≤ moonJD (j + 13) - moonJD j) ∧ moonJD (j + 13) - moonJD j ≤ 385 at h
    omega

end Lunation
