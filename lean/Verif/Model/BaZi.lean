import Verif.Model.LunarYear

/-! # `Solar.fromBaZi` (`lunar_python/Solar.py` 89-146): the moments with given four pillars -/

namespace Solar
open LunarUtil

/-- `lunar_python/Solar.py` 139-143: keep the moment if its four pillars are the given ones (`and` stops at the first
that differs) -/
def baZiCheck (A : Astro) (yg mg dg tg : PyStr) (sect : ℤ) (solar : Solar) : Except PyErr (List Solar) := do
  let lunar ← Lunar.fromSolar A solar
  let dgz ← (if 2 = sect then lunar.getDayInGanZhiExact2 else lunar.getDayInGanZhiExact)
  let y ← lunar.getYearInGanZhiExact
  if y = yg then
    let m ← lunar.getMonthInGanZhiExact
    if m = mg ∧ dgz = dg then
      let t ← lunar.getTimeInGanZhi
      if t = tg then return [solar] else return []
    else return []
  else return []

/-- `lunar_python/Solar.py` 132-143: the loop over the hours; `t` is the day found, `d` its distance from the Jie -/
def baZiHours (A : Astro) (yg mg dg tg : PyStr) (sect : ℤ) (t : Solar) (d : ℤ) : List ℤ → Except PyErr (List Solar)
  | [] => return []
  | hour :: hours => do
    let (mi, s) := if d = 0 ∧ hour = t.hour then (t.minute, t.second) else (0, 0)
    let solar ← Solar.fromYmdHms t.year t.month t.day hour mi s
    let a ← baZiCheck A yg mg dg tg sect solar
    let b ← baZiHours A yg mg dg tg sect t d hours
    return a ++ b

/-- `lunar_python/Solar.py` 119-143: one year of the loop; `m` is the offset of the Jie -/
def baZiYear (A : Astro) (yg mg dg tg : PyStr) (sect base_year m : ℤ) (hours : List ℤ) (y : ℤ) : Except PyErr (List Solar) := do
  let lunar ← Lunar.fromYmd A y 1 1
  let name ← pyIndex Lunar.JIE_QI_IN_USE (4 + m)
  let t ← Lunar.term lunar.jieQi name
  if t.year ≥ base_year then
    let lt ← Lunar.fromSolar A t
    let gz ← lt.getDayInGanZhiExact2
    let d := getJiaZiIndex dg - getJiaZiIndex gz
    let d := if d < 0 then d + 60 else d
    let t ← (if d > 0 then t.next d else pure t)
    baZiHours A yg mg dg tg sect t d hours
  else return []

/-- `lunar_python/Solar.py` 117-145: the loop over the years -/
def baZiLoop (f : ℤ → Except PyErr (List Solar)) (start_year end_year : ℤ) (y : ℤ) : Except PyErr (List Solar) :=
  if y ≤ end_year then do
    let a ← (if y ≥ start_year then f y else pure [])
    let b ← baZiLoop f start_year end_year (y + 60)
    return a ++ b
  else return []
termination_by (end_year + 1 - y).toNat

/-- `lunar_python/Solar.py` 89-146 `fromBaZi`; `now` is the present year, `datetime.now().year` -/
def fromBaZi (A : Astro) (now : ℤ) (year_gan_zhi month_gan_zhi day_gan_zhi time_gan_zhi : PyStr) (sect : ℤ := 2)
    (base_year : ℤ := 1900) : Except PyErr (List Solar) :=
  let sect : ℤ := if 1 = sect then 1 else 2
  let m := find (month_gan_zhi.drop 1) ZHI (-1) - 2
  let m := if m < 0 then m + 12 else m
  if ((find (year_gan_zhi.take 1) GAN (-1) + 1) * 2 + m) % 10 ≠ find (month_gan_zhi.take 1) GAN (-1) then .ok []
  else
    let y := getJiaZiIndex year_gan_zhi - 57
    let y := if y < 0 then y + 60 else y
    let y := y + 1
    let m := m * 2
    let h := find (time_gan_zhi.drop 1) ZHI (-1) * 2
    let hours := if 0 = h ∧ 2 = sect then [h, 23] else [h]
    baZiLoop (baZiYear A year_gan_zhi month_gan_zhi day_gan_zhi time_gan_zhi sect base_year m hours) (base_year - 1) now y

end Solar
