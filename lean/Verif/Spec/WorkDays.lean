import Verif.Spec.Weeks
import Verif.Spec.Holidays
import Mathlib.Data.Set.Card

/-! # Working days -/

namespace Spec

/-- A day is a working day iff its (first) holiday record says so, or it has no record and falls on
Monday to Friday. -/
def Working (t : List HRec) (x : Date) : Prop :=
  match t.find? (fun r => r.day = ymd8 x.y x.m x.d) with
  | some r => r.workCh = '0'
  | none => ∃ w : ℤ, 1 ≤ w ∧ w ≤ 5 ∧ IsWeekday w x

/-- `y` is the `n`-th date satisfying `W` strictly after (`e = 1`) or before (`e = -1`) `x`: it is
`k ≥ 1` days away, satisfies `W`, and exactly `n` of the `k` days up to it do. -/
def IsNth (e : ℤ) (W : Date → Prop) (n : ℕ) (x y : Date) : Prop :=
  ∃ k : ℕ, 1 ≤ k ∧ DaysAfter (e * k) x y ∧ W y ∧
    {z : Date | z.Valid ∧ W z ∧ ∃ j : ℕ, 1 ≤ j ∧ j ≤ k ∧ DaysAfter (e * j) x z}.ncard = n

end Spec
