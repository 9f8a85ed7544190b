import Mathlib.Data.Int.Notation
import Mathlib.Data.Nat.Notation
import Mathlib.Logic.Function.Iterate

/-!
# Specification of the civil calendar

Independent of the model: which dates exist, what the following day is, and what a moment is.
Julian calendar through 1582-10-04, Gregorian from 1582-10-15, astronomical year numbering
(year 0 and negative years exist).
-/

namespace Spec

/-- A civil date written year, month, day. -/
structure Date where
  y : ℤ
  m : ℤ
  d : ℤ
  deriving DecidableEq, Repr

/-- Leap years: every fourth year through 1582, the Gregorian rule afterwards. -/
def Leap (y : ℤ) : Prop := if y ≤ 1582 then 4 ∣ y else 4 ∣ y ∧ (100 ∣ y → 400 ∣ y)

instance (y : ℤ) : Decidable (Leap y) := by unfold Leap; infer_instance

/-- The number written on the last day of a month. -/
def lastDay (y m : ℤ) : ℤ :=
  if m = 2 then (if Leap y then 29 else 28)
  else if m = 4 ∨ m = 6 ∨ m = 9 ∨ m = 11 then 30
  else 31

/-- The date exists in the civil calendar. -/
def Date.Valid (x : Date) : Prop :=
  1 ≤ x.m ∧ x.m ≤ 12 ∧ 1 ≤ x.d ∧ x.d ≤ lastDay x.y x.m ∧
    ¬ (x.y = 1582 ∧ x.m = 10 ∧ 5 ≤ x.d ∧ x.d ≤ 14)

instance (x : Date) : Decidable x.Valid := by unfold Date.Valid; infer_instance

/-- The following civil day. -/
def tomorrow (x : Date) : Date :=
  if x = ⟨1582, 10, 4⟩ then ⟨1582, 10, 15⟩
  else if x.d < lastDay x.y x.m then ⟨x.y, x.m, x.d + 1⟩
  else if x.m < 12 then ⟨x.y, x.m + 1, 1⟩
  else ⟨x.y + 1, 1, 1⟩

/-- `b` is the civil day `n` days after `a` (`n` may be negative). -/
def DaysAfter (n : ℤ) (a b : Date) : Prop :=
  (0 ≤ n ∧ tomorrow^[n.toNat] a = b) ∨ (n ≤ 0 ∧ tomorrow^[(-n).toNat] b = a)

/-- A clock time. -/
def ClockOk (h mi s : ℤ) : Prop := 0 ≤ h ∧ h ≤ 23 ∧ 0 ≤ mi ∧ mi ≤ 59 ∧ 0 ≤ s ∧ s ≤ 59

instance (h mi s : ℤ) : Decidable (ClockOk h mi s) := by unfold ClockOk; infer_instance

end Spec

namespace Spec

/-- `b` (date, h, mi, s) is `n` seconds after `a`: whole days between the dates plus clock difference. -/
def SecondsAfter (n : ℤ) (a : Date) (ah ami as_ : ℤ) (b : Date) (bh bmi bs : ℤ) : Prop :=
  ∃ k : ℤ, DaysAfter k a b ∧
    n = 86400 * k + ((bh * 3600 + bmi * 60 + bs) - (ah * 3600 + ami * 60 + as_))

end Spec
