import Verif.Model.EightChar
import Verif.Model.LunarYear

/-! # `eightchar/`: `Yun`, `DaYun`, `LiuNian`, `XiaoYun`, `LiuYue`

`int(a / b)` of the code is written `Int.tdiv`; `F64.trunc_div_eq_tdiv` shows that the double in between
does no harm below 2^53. -/

open LunarUtil

/-- `lunar_python/eightchar/Yun.py` 11-57: the object -/
structure Yun where
  lunar : Lunar
  gender : ℤ
  forward : Bool
  startYear : ℤ
  startMonth : ℤ
  startDay : ℤ
  startHour : ℤ
  deriving DecidableEq, Repr

namespace Yun

/-- `lunar_python/eightchar/Yun.py` 41-42: index of the double hour, 11 at 23 o'clock -/
def zhiOf (s : Solar) : ℤ :=
  if s.hour = 23 then 11 else getTimeZhiIndex ((s.toYmdHms.drop 11).take 5)

/-- `lunar_python/eightchar/Yun.py` 31-52 (from `hour = 0` on): years, months, days, hours -/
def span (start end_ : Solar) (sect : ℤ) : Except PyErr (ℤ × ℤ × ℤ × ℤ) := do
  if 2 = sect then
    let minutes ← end_.subtractMinute start
    let year := minutes.tdiv 4320
    let minutes := minutes - year * 4320
    let month := minutes.tdiv 360
    let minutes := minutes - month * 360
    let day := minutes.tdiv 12
    let minutes := minutes - day * 12
    return (year, month, day, minutes * 2)
  else
    let hour_diff := zhiOf end_ - zhiOf start
    let day_diff ← end_.subtract start
    let (hour_diff, day_diff) := if hour_diff < 0 then (hour_diff + 12, day_diff - 1) else (hour_diff, day_diff)
    let month_diff := (hour_diff * 10).tdiv 30
    let month := day_diff * 4 + month_diff
    let day := hour_diff * 10 - month_diff * 30
    let year := month.tdiv 12
    return (year, month - year * 12, day, 0)

/-- `lunar_python/eightchar/Yun.py` 11-57 `__init__` with `__compute_start` (`None.getSolar()` raises);
`lunar_python/EightChar.py` 429-437 `getYun` -/
def make (e : EightChar) (gender : ℤ) (sect : ℤ := 1) : Except PyErr Yun := do
  let l := e.lunar
  let yang : Bool := l.yearGanIndexExact % 2 = 0
  let man : Bool := gender = 1
  let forward := (yang && man) || (!yang && !man)
  let prev_jie ← l.getPrevJie
  let next_jie ← l.getNextJie
  let current := l.solar
  let start ← if forward then pure current else match prev_jie with
    | some j => pure j.solar
    | none => .error .attributeError
  let end_ ← if forward then (match next_jie with
    | some j => pure j.solar
    | none => .error .attributeError) else pure current
  let (y, m, d, h) ← span start end_ sect
  return { lunar := l, gender := gender, forward := forward, startYear := y, startMonth := m, startDay := d, startHour := h }

/-- `lunar_python/eightchar/Yun.py` 104-113 `getStartSolar` -/
def getStartSolar (u : Yun) : Except PyErr Solar := do
  let solar := u.lunar.solar
  let solar ← solar.nextYear u.startYear
  let solar ← solar.nextMonth u.startMonth
  let solar ← solar.next u.startDay
  solar.nextHour u.startHour

end Yun

/-- `lunar_python/eightchar/DaYun.py` 11-27: the object -/
structure DaYun where
  yun : Yun
  index : ℤ
  startYear : ℤ
  startAge : ℤ
  endYear : ℤ
  endAge : ℤ
  deriving DecidableEq, Repr

/-- `lunar_python/eightchar/LiuNian.py` 11-16: the object -/
structure LiuNian where
  daYun : DaYun
  index : ℤ
  year : ℤ
  age : ℤ
  deriving DecidableEq, Repr

/-- `lunar_python/eightchar/XiaoYun.py` 10-16: the object -/
structure XiaoYun where
  daYun : DaYun
  index : ℤ
  year : ℤ
  age : ℤ
  forward : Bool
  deriving DecidableEq, Repr

/-- `lunar_python/eightchar/LiuYue.py` 11-13: the object -/
structure LiuYue where
  liuNian : LiuNian
  index : ℤ
  deriving DecidableEq, Repr

namespace LiuNian

/-- `lunar_python/eightchar/LiuNian.py` 11-16 `__init__` -/
def make (d : DaYun) (index : ℤ) : LiuNian := ⟨d, index, d.startYear + index, d.startAge + index⟩

/-- `lunar_python/eightchar/LiuNian.py` 27-36 `getGanZhi`; `getLunar` of the Li Chun instant is
`Lunar.fromSolar` (`lunar_python/Solar.py` 251-257) -/
def getGanZhi (A : Astro) (n : LiuNian) : Except PyErr PyStr := do
  let lc ← Lunar.term n.daYun.yun.lunar.jieQi ['立', '春']
  let ll ← Lunar.fromSolar A lc
  let offset := getJiaZiIndex (← ll.getYearInGanZhiExact) + n.index
  let offset := if n.daYun.index > 0 then offset + (n.daYun.startAge - 1) else offset
  pyIndex JIA_ZI (offset % 60)

/-- `lunar_python/eightchar/LiuNian.py` 52-61 `getLiuYue` -/
def getLiuYue (n : LiuNian) : List LiuYue := (pyRange 0 12).map (fun i => ⟨n, i⟩)

end LiuNian

namespace XiaoYun

/-- `lunar_python/eightchar/XiaoYun.py` 10-16 `__init__` -/
def make (d : DaYun) (index : ℤ) (forward : Bool) : XiaoYun := ⟨d, index, d.startYear + index, d.startAge + index, forward⟩

/-- `while offset < 0: offset += 60` (`lunar_python/eightchar/XiaoYun.py` 38-39) -/
def whileAdd (x : ℤ) : ℤ := if x < 0 then whileAdd (x + 60) else x
termination_by (-x).toNat
decreasing_by omega

/-- `lunar_python/eightchar/XiaoYun.py` 27-41 `getGanZhi` -/
def getGanZhi (x : XiaoYun) : Except PyErr PyStr := do
  let offset := getJiaZiIndex (← x.daYun.yun.lunar.getTimeInGanZhi)
  let add := x.index + 1
  let add := if x.daYun.index > 0 then add + (x.daYun.startAge - 1) else add
  let offset := offset + (if x.forward then add else -add)
  pyIndex JIA_ZI (whileAdd offset % 60)

end XiaoYun

namespace DaYun

/-- `lunar_python/eightchar/DaYun.py` 11-27 `__init__` -/
def make (u : Yun) (index : ℤ) : Except PyErr DaYun := do
  let birth_year := u.lunar.solar.year
  let year := (← u.getStartSolar).year
  if index < 1 then
    return ⟨u, index, birth_year, 1, year - 1, year - birth_year⟩
  else
    let add := (index - 1) * 10
    let startYear := year + add
    let startAge := startYear - birth_year + 1
    return ⟨u, index, startYear, startAge, startYear + 9, startAge + 9⟩

/-- `lunar_python/eightchar/DaYun.py` 47-61 `getGanZhi` -/
def getGanZhi (d : DaYun) : Except PyErr PyStr := do
  if d.index < 1 then return []
  else
    let offset := getJiaZiIndex (← d.yun.lunar.getMonthInGanZhiExact)
    let offset := offset + (if d.yun.forward then d.index else -d.index)
    let offset := if offset ≥ 60 then offset - 60 else offset
    let offset := if offset < 0 then offset + 60 else offset
    pyIndex JIA_ZI offset

/-- `lunar_python/eightchar/DaYun.py` 77-88 `getLiuNian` -/
def getLiuNian (d : DaYun) (n : ℤ := 10) : List LiuNian :=
  let n := if d.index < 1 then d.endYear - d.startYear + 1 else n
  (pyRange 0 n).map (LiuNian.make d)

/-- `lunar_python/eightchar/DaYun.py` 90-101 `getXiaoYun` -/
def getXiaoYun (d : DaYun) (n : ℤ := 10) : List XiaoYun :=
  let n := if d.index < 1 then d.endYear - d.startYear + 1 else n
  (pyRange 0 n).map (fun i => XiaoYun.make d i d.yun.forward)

end DaYun

/-- `lunar_python/eightchar/Yun.py` 115-124 `getDaYun` -/
def Yun.getDaYun (u : Yun) (n : ℤ := 10) : Except PyErr (List DaYun) := (pyRange 0 n).mapM (DaYun.make u)

/-- `lunar_python/eightchar/LiuYue.py` 25-51 `getGanZhi` -/
def LiuYue.getGanZhi (A : Astro) (m : LiuYue) : Except PyErr PyStr := do
  let year_gan_zhi ← m.liuNian.getGanZhi A
  let year_gan := year_gan_zhi.take 1
  let offset : ℤ :=
    if ['甲'] = year_gan ∨ ['己'] = year_gan then 2
    else if ['乙'] = year_gan ∨ ['庚'] = year_gan then 4
    else if ['丙'] = year_gan ∨ ['辛'] = year_gan then 6
    else if ['丁'] = year_gan ∨ ['壬'] = year_gan then 8
    else 0
  let gan ← pyIndex GAN ((m.index + offset) % 10 + 1)
  let zhi ← pyIndex ZHI ((m.index + BASE_MONTH_ZHI_INDEX) % 12 + 1)
  return gan ++ zhi

/-- `lunar_python/eightchar/LiuYue.py` 18-23 `getMonthInChinese` -/
def LiuYue.getMonthInChinese (m : LiuYue) : Except PyErr PyStr := pyIndex MONTH (m.index + 1)

/-- `lunar_python/eightchar/DaYun.py` 63-68 `getXun` -/
def DaYun.getXun (d : DaYun) : Except PyErr PyStr := do LunarUtil.getXun (← d.getGanZhi)

/-- `lunar_python/eightchar/DaYun.py` 70-75 `getXunKong` -/
def DaYun.getXunKong (d : DaYun) : Except PyErr PyStr := do LunarUtil.getXunKong (← d.getGanZhi)

/-- `lunar_python/eightchar/LiuNian.py` 38-43 `getXun` -/
def LiuNian.getXun (A : Astro) (n : LiuNian) : Except PyErr PyStr := do LunarUtil.getXun (← n.getGanZhi A)

/-- `lunar_python/eightchar/LiuNian.py` 45-50 `getXunKong` -/
def LiuNian.getXunKong (A : Astro) (n : LiuNian) : Except PyErr PyStr := do LunarUtil.getXunKong (← n.getGanZhi A)

/-- `lunar_python/eightchar/XiaoYun.py` 43-48 `getXun` -/
def XiaoYun.getXun (x : XiaoYun) : Except PyErr PyStr := do LunarUtil.getXun (← x.getGanZhi)

/-- `lunar_python/eightchar/XiaoYun.py` 50-55 `getXunKong` -/
def XiaoYun.getXunKong (x : XiaoYun) : Except PyErr PyStr := do LunarUtil.getXunKong (← x.getGanZhi)

/-- `lunar_python/eightchar/LiuYue.py` 53-58 `getXun` -/
def LiuYue.getXun (A : Astro) (m : LiuYue) : Except PyErr PyStr := do LunarUtil.getXun (← m.getGanZhi A)

/-- `lunar_python/eightchar/LiuYue.py` 60-65 `getXunKong` -/
def LiuYue.getXunKong (A : Astro) (m : LiuYue) : Except PyErr PyStr := do LunarUtil.getXunKong (← m.getGanZhi A)
