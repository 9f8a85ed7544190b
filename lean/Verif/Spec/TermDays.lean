import Verif.Spec.LeapRule
import Verif.Spec.JulianDate
import Verif.Model.Lunar
import Verif.Proof.SolarBasic

/-! # Principal terms by the table of solar terms

`Spec/LeapRule.lean` speaks of the days `LunarYear.compute` has for the principal terms, which no caller sees.  These definitions
speak of the table a caller gets from `getJieQiTable`: its entry `1` is the winter solstice before the year, entry `2 * j + 1` the
principal term `j` after it, entry `25` the winter solstice of the year. -/

namespace Spec

/-- the clock is 20 seconds or more from midnight -/
def ClearOfMidnight (p : Solar) : Prop := 20 ≤ p.hour * 3600 + p.minute * 60 + p.second ∧ p.hour * 3600 + p.minute * 60 + p.second < 86400 - 20

/-- one of the principal terms of the table of `l`, from solstice to solstice, is dated on a day of month `m` -/
def HoldsTerm (l : Lunar) (m : LunarMonth) : Prop := ∃ j ≤ 12, ∃ p d, l.jieQi[2 * j + 1]? = some p ∧ IsDay d p.date ∧ InMonth m d

end Spec
