import Verif.Proof.F64
import Verif.Model.Py
import Mathlib.Tactic.Linarith
import Mathlib.Data.Rat.Floor

/-! `int(ceil(a / b))` through a double. -/

namespace F64

theorem floor_div_eq {a b : ℤ} (ha : |a| < 2 ^ 53) (hb : 0 < b) : ⌊div (a : ℚ) b⌋ = a / b := by
  have hbq : (0 : ℚ) < b := by exact_mod_cast hb
  have haq2 : |(a : ℚ)| < 2 ^ 53 := by exact_mod_cast ha
  have herr := abs_rnd_sub_le_rel ((a : ℚ) / b)
  have herr2 : |rnd ((a : ℚ) / b) - a / b| < 1 / b := by
    refine herr.trans_lt ?_
    rw [abs_div, abs_of_pos hbq, div_div, div_lt_div_iff₀ (by positivity) hbq]
    nlinarith
  rw [abs_lt] at herr2
  have hdm := Int.emod_add_mul_ediv a b
  have hr0 := Int.emod_nonneg a hb.ne'
  have hr1 := Int.emod_lt_of_pos a hb
  have hdq : (a : ℚ) / b = (a / b : ℤ) + ((a % b : ℤ) : ℚ) / b := by
    rw [eq_comm]
    field_simp
    have : ((a % b + b * (a / b) : ℤ) : ℚ) = (a : ℚ) := by rw [hdm]
    push_cast at this
    linarith
  have hrle : ((a % b : ℤ) : ℚ) / b ≤ 1 - 1 / b := by
    have h : ((a % b : ℤ) : ℚ) ≤ b - 1 := by exact_mod_cast (by omega : a % b ≤ b - 1)
    rw [div_le_iff₀ hbq, sub_mul, div_mul_cancel₀ _ hbq.ne']
    linarith
  unfold div
  rw [Int.floor_eq_iff]
  constructor
  · rcases eq_or_lt_of_le hr0 with h | h
    · have hex : (a : ℚ) / b = (a / b : ℤ) := by rw [hdq, ← h]; simp
      rw [hex, rnd_int]
      have h1 : |a / b| ≤ |a| := by
        have e : a = b * (a / b) := by omega
        rw [show |a| = |b * (a / b)| by rw [← e], abs_mul, abs_of_pos hb]
        nlinarith [abs_nonneg (a / b)]
      exact h1.trans ha.le
    · have : (1 : ℚ) / b ≤ ((a % b : ℤ) : ℚ) / b := by
        have : (1 : ℚ) ≤ (a % b : ℤ) := by exact_mod_cast h
        exact div_le_div_of_nonneg_right this hbq.le
      linarith
  · linarith

/-- `int(ceil(a / b))` evaluated in doubles is ceiling division for `|a| < 2^53`:
the justification of `pyCeilDiv`. -/
theorem ceil_div_eq {a b : ℤ} (ha : |a| < 2 ^ 53) (hb : 0 < b) : ⌈div (a : ℚ) b⌉ = pyCeilDiv a b := by
  have h := floor_div_eq (a := -a) (by rwa [abs_neg]) hb
  unfold pyCeilDiv
  rw [← h]
  unfold div
  have e : ((-a : ℤ) : ℚ) / b = -((a : ℚ) / b) := by push_cast; ring
  rw [e, rnd_neg, Int.floor_neg, neg_neg]

end F64
