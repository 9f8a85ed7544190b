import Mathlib.Algebra.Order.Group.Abs
import Mathlib.Algebra.Order.Ring.Int

/-! # Spec: the numbering of lunar months

A month is named by its lunar year and its number 1..12, negative for a leap month. -/

namespace LunarCal

/-- Month `b` may come right after month `a`: the leap month of `a`, or the month with the next number
(after number 12: number 1 of the following year). -/
def Follows (a b : ℤ × ℤ) : Prop :=
  (0 < a.2 ∧ b = (a.1, -a.2)) ∨ (|a.2| < 12 ∧ b = (a.1, |a.2| + 1)) ∨ (|a.2| = 12 ∧ b = (a.1 + 1, 1))

instance (a b : ℤ × ℤ) : Decidable (Follows a b) := by unfold Follows; infer_instance

/-- The two stretches of history (as Julian day numbers of the first day of the month) where the month
numbers were shifted by one: AD 9-23 (王莽) and AD 237-239 (魏明帝), end points included. -/
def Era (jd : ℤ) : Prop := (1724360 ≤ jd ∧ jd ≤ 1729794) ∨ (1807724 ≤ jd ∧ jd ≤ 1808699)

instance (jd : ℤ) : Decidable (Era jd) := by unfold Era; infer_instance

end LunarCal
