import Verif.Model.FloatLike
import Mathlib.Analysis.SpecialFunctions.Trigonometric.Basic

/-! # What is assumed of `math.sin` and `math.cos` -/

/-- `math.sin` and `math.cos` are good approximations of sine and cosine (about eight units in the last place; the usual
libraries are within one) and stay between -1 and 1 -/
structure Libm.Good (M : Libm) : Prop where
  cos_err : ∀ x : ℚ, |(M.cos x : ℝ) - Real.cos x| ≤ 1 / 2 ^ 50
  sin_err : ∀ x : ℚ, |(M.sin x : ℝ) - Real.sin x| ≤ 1 / 2 ^ 50
  cos_le : ∀ x : ℚ, |M.cos x| ≤ 1
  sin_le : ∀ x : ℚ, |M.sin x| ≤ 1

/-- sine and cosine cut off after 50 binary places -/
noncomputable def Libm.cut : Libm :=
  ⟨fun x => (⌊Real.sin x * 2 ^ 50⌋ : ℚ) / 2 ^ 50, fun x => (⌊Real.cos x * 2 ^ 50⌋ : ℚ) / 2 ^ 50⟩

private theorem cut_err (y : ℝ) : |(((⌊y * 2 ^ 50⌋ : ℚ) / 2 ^ 50 : ℚ) : ℝ) - y| ≤ 1 / 2 ^ 50 := by
  have h1 := Int.floor_le (y * 2 ^ 50)
  have h2 := Int.lt_floor_add_one (y * 2 ^ 50)
  push_cast
  generalize (⌊y * 2 ^ 50⌋ : ℝ) = z at *
  rw [abs_le, sub_eq_add_neg]
  have e : z / 2 ^ 50 * 2 ^ 50 = z := div_mul_cancel₀ _ (by positivity)
  constructor
  · refine le_of_mul_le_mul_right (a := 2 ^ 50) ?_ (by positivity)
    rw [add_mul, e]
    linarith
  · refine le_of_mul_le_mul_right (a := 2 ^ 50) ?_ (by positivity)
    rw [add_mul, e]
    linarith

private theorem cut_le (y : ℝ) (h : |y| ≤ 1) : |((⌊y * 2 ^ 50⌋ : ℚ) / 2 ^ 50 : ℚ)| ≤ 1 := by
  obtain ⟨h1, h2⟩ := abs_le.1 h
  have a : (-2 ^ 50 : ℤ) ≤ ⌊y * 2 ^ 50⌋ := Int.le_floor.2 (by push_cast; linarith)
  have b : ⌊y * 2 ^ 50⌋ ≤ (2 ^ 50 : ℤ) := by
    have := Int.floor_le (y * 2 ^ 50)
    have : ((⌊y * 2 ^ 50⌋ : ℤ) : ℝ) ≤ ((2 ^ 50 : ℤ) : ℝ) := by push_cast; linarith
    exact_mod_cast this
  have a' : (-2 ^ 50 : ℚ) ≤ ⌊y * 2 ^ 50⌋ := by exact_mod_cast a
  have b' : (⌊y * 2 ^ 50⌋ : ℚ) ≤ 2 ^ 50 := by exact_mod_cast b
  rw [abs_le, le_div_iff₀ (by positivity), div_le_one (by positivity)]
  constructor <;> linarith

/-- the assumption can be met -/
theorem Libm.cut_good : Libm.cut.Good :=
  ⟨fun _ => cut_err _, fun _ => cut_err _, fun _ => cut_le _ (Real.abs_cos_le_one _), fun _ => cut_le _ (Real.abs_sin_le_one _)⟩
