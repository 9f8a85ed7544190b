import Verif.Model.ShouXing
import Verif.Proof.Lunation.Near

/-! # The place of the sun, without rounding

`ShouXing.saLon` is the model of `saLon` (`lunar_python/util/ShouXingUtil.py` 466-467) over any kind of number.  On real numbers, with
the true sine and cosine, it is what the series say. -/

namespace Spec

/-- at `t` Julian centuries after noon of 1 January 2000 the apparent longitude of the sun is `W`, by the whole series; within a thousand years -/
def SunAt (W t : ℝ) : Prop := |t| ≤ 10.02 ∧ ShouXing.saLon t (-1) = W

end Spec
