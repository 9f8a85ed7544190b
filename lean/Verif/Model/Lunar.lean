import Verif.Model.LunarUtil
import Verif.Model.Solar

/-! # `Lunar.py`: the object and its pillars

The constructor is split: `Lunar.compute` (lines 39-181) works on the solar date and the table of 31
solar terms; finding these from a lunar date (lines 13-37) is in `Model/LunarYear.lean`. -/

/-- `lunar_python/Lunar.py` 13-181: the fields of a `Lunar` (the cached `__eightChar` is left out).
`jieQi` is the dict `__jieQi` as the list of its values in the order of `JIE_QI_IN_USE`. -/
structure Lunar where
  year : ℤ
  month : ℤ
  day : ℤ
  hour : ℤ
  minute : ℤ
  second : ℤ
  solar : Solar
  jieQi : List Solar
  yearGanIndex : ℤ
  yearZhiIndex : ℤ
  yearGanIndexByLiChun : ℤ
  yearZhiIndexByLiChun : ℤ
  yearGanIndexExact : ℤ
  yearZhiIndexExact : ℤ
  monthGanIndex : ℤ
  monthZhiIndex : ℤ
  monthGanIndexExact : ℤ
  monthZhiIndexExact : ℤ
  dayGanIndex : ℤ
  dayZhiIndex : ℤ
  dayGanIndexExact : ℤ
  dayZhiIndexExact : ℤ
  dayGanIndexExact2 : ℤ
  dayZhiIndexExact2 : ℤ
  timeGanIndex : ℤ
  timeZhiIndex : ℤ
  weekIndex : ℤ
  deriving DecidableEq, Repr

namespace Lunar
open LunarUtil

/-- `self.__jieQi[name]`: names are the entries of `JIE_QI_IN_USE` (`lunar_python/Lunar.py` 47-52) -/
def term (jieQi : List Solar) (name : PyStr) : Except PyErr Solar :=
  match JIE_QI_IN_USE.findIdx? (· == name) with
  | some i => pyIndex jieQi i
  | none => .error .keyError

/-- result of `__computeYear`: the three (stem, branch) index pairs -/
structure YearPart where
  gan : ℤ
  zhi : ℤ
  ganL : ℤ
  zhiL : ℤ
  ganE : ℤ
  zhiE : ℤ
  deriving DecidableEq, Repr

/-- `lunar_python/Lunar.py` 54-110 `__computeYear`.  (Python `%` with positive modulus is never
negative, so the corrections in lines 60-64 are dead code; they are kept.) -/
def computeYear (year : ℤ) (solar : Solar) (jieQi : List Solar) : Except PyErr YearPart := do
  let offset := year - 4
  let year_gan_index := offset % 10
  let year_zhi_index := offset % 12
  let year_gan_index := if year_gan_index < 0 then year_gan_index + 10 else year_gan_index
  let year_zhi_index := if year_zhi_index < 0 then year_zhi_index + 12 else year_zhi_index
  let solar_year := solar.year
  let solar_ymd := solar.toYmd
  let solar_ymd_hms := solar.toYmdHms
  let li_chun ← term jieQi ['立', '春']
  let li_chun ←
    if li_chun.year ≠ solar_year then term jieQi ['L', 'I', '_', 'C', 'H', 'U', 'N'] else pure li_chun
  let li_chun_ymd := li_chun.toYmd
  let li_chun_ymd_hms := li_chun.toYmdHms
  -- the adjustments of `g`, `z` and of `g_exact`, `z_exact`
  let (a, e) : ℤ × ℤ :=
    if year = solar_year then
      (if strLt solar_ymd li_chun_ymd then -1 else 0, if strLt solar_ymd_hms li_chun_ymd_hms then -1 else 0)
    else if year < solar_year then
      (if strLe li_chun_ymd solar_ymd then 1 else 0, if strLe li_chun_ymd_hms solar_ymd_hms then 1 else 0)
    else (0, 0)
  let g := year_gan_index + a
  let z := year_zhi_index + a
  let g_exact := year_gan_index + e
  let z_exact := year_zhi_index + e
  return {
    gan := year_gan_index, zhi := year_zhi_index
    ganL := (if g < 0 then g + 10 else g) % 10
    zhiL := (if z < 0 then z + 12 else z) % 12
    ganE := (if g_exact < 0 then g_exact + 10 else g_exact) % 10
    zhiE := (if z_exact < 0 then z_exact + 12 else z_exact) % 12 }

/-- the loops of `lunar_python/Lunar.py` 120-126 and 135-141: `fmt` is `toYmd` or `toYmdHms`, `cur`
the formatted moment, `start` the previous term, the list the terms still to be visited. -/
def monthLoop (fmt : Solar → PyStr) (cur : PyStr) : Option Solar → ℤ → List Solar → ℤ
  | _, index, [] => index
  | start, index, e :: es =>
    let s := match start with
      | none => cur
      | some s => fmt s
    if strLe s cur ∧ strLt cur (fmt e) then index else monthLoop fmt cur (some e) (index + 1) es

/-- every second entry, from the first: `range(0, size, 2)` (`lunar_python/Lunar.py` 120) -/
def everySecond {α : Type} : List α → List α
  | [] => []
  | [a] => [a]
  | a :: _ :: l => a :: everySecond l

/-- `lunar_python/Lunar.py` 128-130, 143-145: stem and branch of the month from the loop's index and
the year stem -/
def monthGan (index yearGan : ℤ) : ℤ :=
  let g_offset := (((yearGan + (if index < 0 then 1 else 0)) % 5 + 1) * 2) % 10
  ((if index < 0 then index + 10 else index) + g_offset) % 10

/-- `lunar_python/Lunar.py` 130, 145 -/
def monthZhi (index : ℤ) : ℤ := ((if index < 0 then index + 12 else index) + BASE_MONTH_ZHI_INDEX) % 12

/-- `lunar_python/Lunar.py` 149-151: `int(noon.getJulianDay()) - 11` -/
def dayOffset (solar : Solar) : Except PyErr ℤ := do
  let noon ← Solar.fromYmdHms solar.year solar.month solar.day 12 0 0
  return F64.trunc noon.getJulianDay - 11

/-- the `hm` string of `lunar_python/Lunar.py` 163, 175 -/
def hm (hour minute : ℤ) : PyStr :=
  (if hour < 10 then ['0'] else []) ++ pyStrInt hour ++ [':'] ++ (if minute < 10 then ['0'] else []) ++ pyStrInt minute

/-- `lunar_python/Lunar.py` 39-181 `__compute`, with `year` ... `second` as set by the constructor -/
def compute (year month day hour minute second : ℤ) (solar : Solar) (jieQi : List Solar) :
    Except PyErr Lunar := do
  let y ← computeYear year solar jieQi
  let jies := everySecond jieQi
  let index := monthLoop Solar.toYmd solar.toYmd none (-3) jies
  let indexE := monthLoop Solar.toYmdHms solar.toYmdHms none (-3) jies
  -- `__computeDay`
  let offset ← dayOffset solar
  let day_gan_index := offset % 10
  let day_zhi_index := offset % 12
  let hm := hm hour minute
  let late : Bool := strLe ['2', '3', ':', '0', '0'] hm ∧ strLe hm ['2', '3', ':', '5', '9']
  let day_gan_exact := if late then
      (if day_gan_index + 1 ≥ 10 then day_gan_index + 1 - 10 else day_gan_index + 1) else day_gan_index
  let day_zhi_exact := if late then
      (if day_zhi_index + 1 ≥ 12 then day_zhi_index + 1 - 12 else day_zhi_index + 1) else day_zhi_index
  -- `__computeTime`
  let time_zhi_index := getTimeZhiIndex hm
  return {
    year := year, month := month, day := day, hour := hour, minute := minute, second := second
    solar := solar, jieQi := jieQi
    yearGanIndex := y.gan, yearZhiIndex := y.zhi
    yearGanIndexByLiChun := y.ganL, yearZhiIndexByLiChun := y.zhiL
    yearGanIndexExact := y.ganE, yearZhiIndexExact := y.zhiE
    monthGanIndex := monthGan index y.ganL, monthZhiIndex := monthZhi index
    monthGanIndexExact := monthGan indexE y.ganE, monthZhiIndexExact := monthZhi indexE
    dayGanIndex := day_gan_index, dayZhiIndex := day_zhi_index
    dayGanIndexExact := day_gan_exact, dayZhiIndexExact := day_zhi_exact
    dayGanIndexExact2 := day_gan_index, dayZhiIndexExact2 := day_zhi_index
    timeGanIndex := (day_gan_exact % 5 * 2 + time_zhi_index) % 10, timeZhiIndex := time_zhi_index
    weekIndex := solar.getWeek }

/-- `LunarUtil.GAN[g + 1] + LunarUtil.ZHI[z + 1]` as in all `get...InGanZhi`
(`lunar_python/Lunar.py` 231-310) -/
def pair (g z : ℤ) : Except PyErr PyStr := do
  let a ← pyIndex GAN (g + 1)
  let b ← pyIndex ZHI (z + 1)
  return a ++ b

/-- `lunar_python/Lunar.py` 249-250 -/
def getYearInGanZhi (l : Lunar) := pair l.yearGanIndex l.yearZhiIndex
/-- `lunar_python/Lunar.py` 252-253 -/
def getYearInGanZhiByLiChun (l : Lunar) := pair l.yearGanIndexByLiChun l.yearZhiIndexByLiChun
/-- `lunar_python/Lunar.py` 255-256 -/
def getYearInGanZhiExact (l : Lunar) := pair l.yearGanIndexExact l.yearZhiIndexExact
/-- `lunar_python/Lunar.py` 270-271 -/
def getMonthInGanZhi (l : Lunar) := pair l.monthGanIndex l.monthZhiIndex
/-- `lunar_python/Lunar.py` 273-274 -/
def getMonthInGanZhiExact (l : Lunar) := pair l.monthGanIndexExact l.monthZhiIndexExact
/-- `lunar_python/Lunar.py` 294-295 -/
def getDayInGanZhi (l : Lunar) := pair l.dayGanIndex l.dayZhiIndex
/-- `lunar_python/Lunar.py` 297-298 -/
def getDayInGanZhiExact (l : Lunar) := pair l.dayGanIndexExact l.dayZhiIndexExact
/-- `lunar_python/Lunar.py` 300-301 -/
def getDayInGanZhiExact2 (l : Lunar) := pair l.dayGanIndexExact2 l.dayZhiIndexExact2
/-- `lunar_python/Lunar.py` 309-310 -/
def getTimeInGanZhi (l : Lunar) := pair l.timeGanIndex l.timeZhiIndex

/-- `lunar_python/Lunar.py` 630-631 `getXiu` -/
def getXiu (l : Lunar) : Except PyErr PyStr := do
  let z ← pyIndex ZHI (l.dayZhiIndex + 1)
  pyDict XIU (z ++ pyStrInt l.weekIndex)

end Lunar
