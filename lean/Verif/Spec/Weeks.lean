import Verif.Spec.Calendar

/-! # Specification of weekdays, weeks and month-clipped weeks -/

namespace Spec

/-- `x` falls on weekday `w` (0 = Sunday .. 6 = Saturday): counted from 2000-01-01, a Saturday. -/
def IsWeekday (w : ℤ) (x : Date) : Prop := ∃ n : ℤ, DaysAfter n ⟨2000, 1, 1⟩ x ∧ w = (6 + n) % 7

def SameMonth (x y : Date) : Prop := x.y = y.y ∧ x.m = y.m

instance (x y : Date) : Decidable (SameMonth x y) := by unfold SameMonth; infer_instance

/-- `x` and `y` lie in the same seven-day week beginning on weekday `start`. -/
def SameWeek (start : ℤ) (x y : Date) : Prop :=
  ∃ (f : Date) (i j : ℤ), f.Valid ∧ IsWeekday start f ∧ 0 ≤ i ∧ i ≤ 6 ∧ 0 ≤ j ∧ j ≤ 6 ∧
    DaysAfter i f x ∧ DaysAfter j f y

/-- same week and same month: the pieces into which month borders cut the weeks -/
def SameClip (start : ℤ) (x y : Date) : Prop := SameMonth x y ∧ SameWeek start x y

/-- the piece of `b` directly follows the piece of `a`: there is a last day `e` of `a`'s piece
and the day after it belongs to `b`'s piece. -/
def ClipSucc (start : ℤ) (a b : Date) : Prop :=
  ∃ e : Date, e.Valid ∧ SameClip start a e ∧ ¬ SameClip start e (tomorrow e) ∧
    SameClip start (tomorrow e) b

/-- `b`'s piece is the `n`-th after `a`'s piece -/
def ClipAfter (start : ℤ) : ℕ → Date → Date → Prop
  | 0, a, b => SameClip start a b
  | n + 1, a, b => ∃ c : Date, c.Valid ∧ ClipAfter start n a c ∧ ClipSucc start c b

/-- how many of the days `1, .., n` after a day with weekday `w0` fall on weekday `start` -/
def weekStarts (w0 start : ℤ) (n : ℕ) : ℕ :=
  ((List.range n).filter (fun (k : ℕ) => (w0 + (k + 1 : ℕ)) % 7 = start)).length

/-- `x` is the `k`-th weekday `w` of its month (`k ≥ 1`): `x0` is the month's first day falling on
`w`, and `x` is `7 (k - 1)` days later. -/
def KthWeekday (k w : ℤ) (x : Date) : Prop :=
  ∃ x0 : Date, x0.Valid ∧ SameMonth x0 x ∧ IsWeekday w x0 ∧
    (∀ z : Date, z.Valid → SameMonth z x → IsWeekday w z → ∃ n : ℤ, 0 ≤ n ∧ DaysAfter n x0 z) ∧
    1 ≤ k ∧ DaysAfter (7 * (k - 1)) x0 x

/-- `x` is the last weekday `w` of its month -/
def LastWeekday (w : ℤ) (x : Date) : Prop :=
  IsWeekday w x ∧
    ∀ z : Date, z.Valid → SameMonth z x → IsWeekday w z → ∃ n : ℤ, 0 ≤ n ∧ DaysAfter n z x

end Spec
