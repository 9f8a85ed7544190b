import Verif.Model.LunarYear

/-! # The rule for leap months

The national standard GB/T 33661-2017 puts it like this.  The month of the winter solstice is the eleventh.  If there are
thirteen months from one eleventh month to the next, the first of them without a principal term (`中气`, every second solar
term from the winter solstice on) is a leap month; if there are twelve, none is. -/

namespace Spec

/-- Day (Julian day number) of the principal term `j` after the winter solstice with which the list of year `Y` begins, as
`ShouXingUtil.calcQi` gives it to `LunarYear.compute` -/
def principal (A : Astro) (Y : ℤ) (j : ℕ) : ℤ := (LunarYear.computeJq A Y).getD (2 * j) 0 + LunarYear.J2000

/-- day `d` is a day of month `m` -/
def InMonth (m : LunarMonth) (d : ℤ) : Prop := m.firstJulianDay ≤ d ∧ d < m.firstJulianDay + m.dayCount

/-- one of the principal terms from solstice to solstice falls in month `m` -/
def HasPrincipal (A : Astro) (Y : ℤ) (m : LunarMonth) : Prop := ∃ j ≤ 12, InMonth m (principal A Y j)

end Spec
