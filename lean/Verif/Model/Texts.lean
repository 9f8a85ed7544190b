import Verif.Model.SolarParts
import Verif.Model.LunarDay

/-! # Texts and festivals of the solar calendar, texts of the periods, positions of the gods for lunar years and months -/

open SolarUtil

namespace Solar

/-- `lunar_python/Solar.py` 162-167 `getWeekInChinese` -/
def getWeekInChinese (s : Solar) : Except PyErr PyStr := pyIndex WEEK s.getWeek

/-- `"%d-%d-%d" % (a, b, c)` and `"%d-0-%d" % (a, c)` (`lunar_python/Solar.py` 179, 183) -/
def mkw (a b c : ℤ) : PyStr := pyStrInt a ++ '-' :: (pyStrInt b ++ '-' :: pyStrInt c)

/-- `lunar_python/Solar.py` 169-186 `getFestivals` -/
def getFestivals (s : Solar) : List PyStr :=
  let f1 := (pyDictGet FESTIVAL (Lunar.md s.month s.day)).toList
  let week := s.getWeek
  let f2 := (pyDictGet WEEK_FESTIVAL (mkw s.month (pyCeilDiv s.day 7) week)).toList
  let f3 :=
    if s.day + 7 > getDaysOfMonth s.year s.month then (pyDictGet WEEK_FESTIVAL (mkw s.month 0 week)).toList else []
  f1 ++ f2 ++ f3

/-- `lunar_python/Solar.py` 188-198 `getOtherFestivals` -/
def getOtherFestivals (s : Solar) : List PyStr := (pyDictGet OTHER_FESTIVAL (Lunar.md s.month s.day)).getD []

/-- `lunar_python/Solar.py` 200-229 `getXingZuo` -/
def getXingZuo (s : Solar) : Except PyErr PyStr := pyIndex XING_ZUO s.xingZuoIndex

/-- `lunar_python/Solar.py` 342-355 `toFullString` -/
def toFullString (s : Solar) : Except PyErr PyStr := do
  let t := s.toYmdHms
  let t := if s.isLeapYear then t ++ [' ', '闰', '年'] else t
  let t := t ++ [' ', '星', '期']
  let t := t ++ (← s.getWeekInChinese)
  let t := t ++ (s.getFestivals.map (fun f => [' ', '('] ++ f ++ [')'])).flatten
  let t := t ++ (s.getOtherFestivals.map (fun f => [' ', '('] ++ f ++ [')'])).flatten
  let t := t ++ [' ']
  let t := t ++ (← s.getXingZuo)
  return t ++ ['座']

end Solar

namespace SolarYear

/-- `lunar_python/SolarYear.py` 27-28 `toString` (a `SolarYear` is just its year number) -/
def toString (year : ℤ) : PyStr := pyStrInt year

/-- `lunar_python/SolarYear.py` 30-31 `toFullString` -/
def toFullString (year : ℤ) : PyStr := pyStrInt year ++ ['年']

end SolarYear

namespace SolarHalfYear

/-- `lunar_python/SolarHalfYear.py` 32-33 `toString` -/
def toString (h : SolarHalfYear) : PyStr := pyStrInt h.year ++ '.' :: pyStrInt h.getIndex

/-- `lunar_python/SolarHalfYear.py` 35-36 `toFullString` -/
def toFullString (h : SolarHalfYear) : PyStr :=
  pyStrInt h.year ++ ['年'] ++ (if 1 = h.getIndex then ['上'] else ['下']) ++ ['半', '年']

end SolarHalfYear

namespace SolarSeason

/-- `lunar_python/SolarSeason.py` 32-33 `toString` -/
def toString (s : SolarSeason) : PyStr := pyStrInt s.year ++ '.' :: pyStrInt s.getIndex

/-- `lunar_python/SolarSeason.py` 35-36 `toFullString` -/
def toFullString (s : SolarSeason) : PyStr := pyStrInt s.year ++ '年' :: (pyStrInt s.getIndex ++ ['季', '度'])

end SolarSeason

namespace SolarMonth

/-- `lunar_python/SolarMonth.py` 30-31 `toString` -/
def toString (m : SolarMonth) : PyStr := pyStrInt m.year ++ '-' :: pyStrInt m.month

/-- `lunar_python/SolarMonth.py` 33-34 `toFullString` -/
def toFullString (m : SolarMonth) : PyStr := pyStrInt m.year ++ '年' :: (pyStrInt m.month ++ ['月'])

end SolarMonth

namespace SolarWeek

/-- `lunar_python/SolarWeek.py` 46-47 `toString` -/
def toString (w : SolarWeek) : Except PyErr PyStr := do
  return pyStrInt w.year ++ '.' :: (pyStrInt w.month ++ '.' :: pyStrInt (← w.getIndex))

/-- `lunar_python/SolarWeek.py` 49-50 `toFullString` -/
def toFullString (w : SolarWeek) : Except PyErr PyStr := do
  return pyStrInt w.year ++ '年' :: (pyStrInt w.month ++ '月' :: '第' :: (pyStrInt (← w.getIndex) ++ ['周']))

end SolarWeek

namespace LunarYear
open LunarUtil Lunar

/-- `lunar_python/LunarYear.py` 157-158 `toString` -/
def toString (y : LunarYear) : PyStr := pyStrInt y.year
/-- `lunar_python/LunarYear.py` 160-161 `toFullString` -/
def toFullString (y : LunarYear) : PyStr := pyStrInt y.year ++ ['年']

/-- `lunar_python/LunarYear.py` 291-292 -/
def getPositionXi (y : LunarYear) := pyIndex POSITION_XI (y.ganIndex + 1)
/-- `lunar_python/LunarYear.py` 294-295 -/
def getPositionXiDesc (y : LunarYear) := desc y.getPositionXi
/-- `lunar_python/LunarYear.py` 297-298 -/
def getPositionYangGui (y : LunarYear) := pyIndex POSITION_YANG_GUI (y.ganIndex + 1)
/-- `lunar_python/LunarYear.py` 300-301 -/
def getPositionYangGuiDesc (y : LunarYear) := desc y.getPositionYangGui
/-- `lunar_python/LunarYear.py` 303-304 -/
def getPositionYinGui (y : LunarYear) := pyIndex POSITION_YIN_GUI (y.ganIndex + 1)
/-- `lunar_python/LunarYear.py` 306-307 -/
def getPositionYinGuiDesc (y : LunarYear) := desc y.getPositionYinGui
/-- `lunar_python/LunarYear.py` 309-310 -/
def getPositionFu (y : LunarYear) (sect : ℤ := 2) := pyIndex (if 1 = sect then POSITION_FU else POSITION_FU_2) (y.ganIndex + 1)
/-- `lunar_python/LunarYear.py` 312-313 -/
def getPositionFuDesc (y : LunarYear) (sect : ℤ := 2) := desc (y.getPositionFu sect)
/-- `lunar_python/LunarYear.py` 315-316 -/
def getPositionCai (y : LunarYear) := pyIndex POSITION_CAI (y.ganIndex + 1)
/-- `lunar_python/LunarYear.py` 318-319 -/
def getPositionCaiDesc (y : LunarYear) := desc y.getPositionCai
/-- `lunar_python/LunarYear.py` 321-322 -/
def getPositionTaiSui (y : LunarYear) := pyIndex POSITION_TAI_SUI_YEAR y.zhiIndex
/-- `lunar_python/LunarYear.py` 324-325 -/
def getPositionTaiSuiDesc (y : LunarYear) := desc y.getPositionTaiSui

/-- `lunar_python/LunarYear.py` 327-333 `next` -/
def next (A : Astro) (y : LunarYear) (n : ℤ) : LunarYear := make A (y.year + n)

end LunarYear

namespace LunarMonth
open LunarUtil Lunar

/-- `lunar_python/LunarMonth.py` 49-50 -/
def getPositionXi (A : Astro) (m : LunarMonth) := pyIndex POSITION_XI (m.getGanIndex A + 1)
/-- `lunar_python/LunarMonth.py` 52-53 -/
def getPositionXiDesc (A : Astro) (m : LunarMonth) := desc (m.getPositionXi A)
/-- `lunar_python/LunarMonth.py` 55-56 -/
def getPositionYangGui (A : Astro) (m : LunarMonth) := pyIndex POSITION_YANG_GUI (m.getGanIndex A + 1)
/-- `lunar_python/LunarMonth.py` 58-59 -/
def getPositionYangGuiDesc (A : Astro) (m : LunarMonth) := desc (m.getPositionYangGui A)
/-- `lunar_python/LunarMonth.py` 61-62 -/
def getPositionYinGui (A : Astro) (m : LunarMonth) := pyIndex POSITION_YIN_GUI (m.getGanIndex A + 1)
/-- `lunar_python/LunarMonth.py` 64-65 -/
def getPositionYinGuiDesc (A : Astro) (m : LunarMonth) := desc (m.getPositionYinGui A)
/-- `lunar_python/LunarMonth.py` 67-68 -/
def getPositionFu (A : Astro) (m : LunarMonth) (sect : ℤ := 2) :=
  pyIndex (if 1 = sect then POSITION_FU else POSITION_FU_2) (m.getGanIndex A + 1)
/-- `lunar_python/LunarMonth.py` 70-71 -/
def getPositionFuDesc (A : Astro) (m : LunarMonth) (sect : ℤ := 2) := desc (m.getPositionFu A sect)
/-- `lunar_python/LunarMonth.py` 73-74 -/
def getPositionCai (A : Astro) (m : LunarMonth) := pyIndex POSITION_CAI (m.getGanIndex A + 1)
/-- `lunar_python/LunarMonth.py` 76-77 -/
def getPositionCaiDesc (A : Astro) (m : LunarMonth) := desc (m.getPositionCai A)

/-- `lunar_python/LunarMonth.py` 88-98 `getPositionTaiSui` -/
def getPositionTaiSui (A : Astro) (m : LunarMonth) : Except PyErr PyStr := do
  let k := |m.month| % 4
  if 0 = k then return ['巽']
  else if 1 = k then return ['艮']
  else if 3 = k then return ['坤']
  else
    let l ← Lunar.fromSolar A (← Solar.fromJulianDay m.firstJulianDay)
    pyIndex POSITION_GAN l.monthGanIndex

/-- `lunar_python/LunarMonth.py` 100-101 -/
def getPositionTaiSuiDesc (A : Astro) (m : LunarMonth) := desc (m.getPositionTaiSui A)

/-- `lunar_python/LunarMonth.py` 113-114 `toString` -/
def toString (m : LunarMonth) : Except PyErr PyStr := do
  let name ← pyIndex MONTH |m.month|
  return pyStrInt m.year ++ ['年'] ++ (if m.isLeap then ['闰'] else []) ++ name ++ ['月', '('] ++ pyStrInt m.dayCount ++ ['天', ')']

end LunarMonth

/-- `lunar_python/Holiday.py` 48-49 `toString` -/
def Holiday.toString (h : Holiday) : PyStr :=
  h.day ++ [' '] ++ h.name ++ (if h.work then ['调', '休'] else []) ++ [' '] ++ h.target

/-- `lunar_python/ShuJiu.py` 31-32 and `lunar_python/Fu.py` 32-33 `toFullString`, on the name and index of the object (`getShuJiu`,
`getFu` return this pair) -/
def nthDayText (p : PyStr × ℤ) : PyStr := p.1 ++ ['第'] ++ pyStrInt p.2 ++ ['天']
