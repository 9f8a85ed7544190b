import Verif.Spec.Calendar
import Mathlib.Data.Rat.Defs

/-! # Specification of the Julian date

The Julian date of a moment: 2451545 at 2000-01-01 12:00:00, one unit per 86400 seconds. -/

namespace Spec

/-- `q` is the Julian date of the moment (date `x`, clock `h:mi:s`). -/
def IsJulianDate (q : ℚ) (x : Date) (h mi s : ℤ) : Prop :=
  ∃ n : ℤ, SecondsAfter n ⟨2000, 1, 1⟩ 12 0 0 x h mi s ∧ q = 2451545 + (n : ℚ) / 86400

/-- The civil date `x` has Julian day number `n` (2000-01-01 has number 2451545). -/
def IsDay (n : ℤ) (x : Date) : Prop := DaysAfter (n - 2451545) ⟨2000, 1, 1⟩ x

end Spec
