import Verif.Model.ShouXing
import Verif.Model.Lunar
import Verif.Spec.JulianDate
import Verif.Proof.SolarBasic
import Verif.Proof.Lunation.Near

/-! # The place of the moon seen from the sun, without rounding

`ShouXing.msaLon` is the model of `msaLon` (`lunar_python/util/ShouXingUtil.py` 510-511) over any kind of number, here real numbers with
the true sine and cosine. -/

namespace Spec

/-- how far the moon is ahead of the sun, in rad, `t` Julian centuries after noon of 1 January 2000, by the series in the length `msaLonT` ends with: 0 at new
moon, `π` at full moon -/
noncomputable def elongation (t : ℝ) : ℝ := ShouXing.msaLon t (-1) 60

/-- the moment `s`, in the time of 120° east, is `t` Julian centuries after noon of 1 January 2000, if dynamical time is `δ` days ahead of universal time -/
def Instant (s : Solar) (δ t : ℝ) : Prop :=
  ∃ d, IsDay d s.date ∧ (86400 * (d - 2451545) + s.hour * 3600 + s.minute * 60 + s.second - 43200 : ℝ) = 86400 * (36525 * t - δ + 1 / 3)

end Spec
