import Verif.Model.LunarYear

/-! # `LunarYear.py`: the sayings about the first days of the year -/

/-- Python `s.replace(old, new, 1)` for a one-character `old` (`lunar_python/LunarYear.py` 211, 217) -/
def pyReplaceOnce (old : Char) (new : PyStr) : PyStr → PyStr
  | [] => []
  | c :: t => if c = old then new ++ t else c :: pyReplaceOnce old new t

namespace LunarYear
open LunarUtil

/-- `Solar.fromJulianDay(self.getMonth(1).getFirstJulianDay()).getLunar()`, `lunar_python/LunarYear.py` 208,
214; without a first month `None` has no `getFirstJulianDay` -/
def firstDay (A : Astro) (y : LunarYear) : Except PyErr Lunar :=
  match y.getMonth 1 with
  | none => .error .attributeError
  | some m => do Lunar.fromSolar A (← Solar.fromJulianDay m.firstJulianDay)

/-- `lunar_python/LunarYear.py` 207-211 `__getZaoByGan` -/
def getZaoByGan (A : Astro) (y : LunarYear) (index : ℤ) (name : PyStr) : Except PyErr PyStr := do
  let offset := index - (← y.firstDay A).dayGanIndex
  let offset := if offset < 0 then offset + 10 else offset
  return pyReplaceOnce '几' (← pyIndex NUMBER (offset + 1)) name

/-- `lunar_python/LunarYear.py` 213-217 `__getZaoByZhi` -/
def getZaoByZhi (A : Astro) (y : LunarYear) (index : ℤ) (name : PyStr) : Except PyErr PyStr := do
  let offset := index - (← y.firstDay A).dayZhiIndex
  let offset := if offset < 0 then offset + 12 else offset
  return pyReplaceOnce '几' (← pyIndex NUMBER (offset + 1)) name

/-- `lunar_python/LunarYear.py` 219-220 -/
def getTouLiang (A : Astro) (y : LunarYear) := y.getZaoByZhi A 0 ['几', '鼠', '偷', '粮']
/-- `lunar_python/LunarYear.py` 222-223 -/
def getCaoZi (A : Astro) (y : LunarYear) := y.getZaoByZhi A 0 ['草', '子', '几', '分']
/-- `lunar_python/LunarYear.py` 225-230 -/
def getGengTian (A : Astro) (y : LunarYear) := y.getZaoByZhi A 1 ['几', '牛', '耕', '田']
/-- `lunar_python/LunarYear.py` 232-233 -/
def getHuaShou (A : Astro) (y : LunarYear) := y.getZaoByZhi A 3 ['花', '收', '几', '分']
/-- `lunar_python/LunarYear.py` 235-240 -/
def getZhiShui (A : Astro) (y : LunarYear) := y.getZaoByZhi A 4 ['几', '龙', '治', '水']
/-- `lunar_python/LunarYear.py` 242-243 -/
def getTuoGu (A : Astro) (y : LunarYear) := y.getZaoByZhi A 6 ['几', '马', '驮', '谷']
/-- `lunar_python/LunarYear.py` 245-246 -/
def getQiangMi (A : Astro) (y : LunarYear) := y.getZaoByZhi A 9 ['几', '鸡', '抢', '米']
/-- `lunar_python/LunarYear.py` 248-249 -/
def getKanCan (A : Astro) (y : LunarYear) := y.getZaoByZhi A 9 ['几', '姑', '看', '蚕']
/-- `lunar_python/LunarYear.py` 251-252 -/
def getGongZhu (A : Astro) (y : LunarYear) := y.getZaoByZhi A 11 ['几', '屠', '共', '猪']
/-- `lunar_python/LunarYear.py` 254-255 -/
def getJiaTian (A : Astro) (y : LunarYear) := y.getZaoByGan A 0 ['甲', '田', '几', '分']
/-- `lunar_python/LunarYear.py` 257-262 -/
def getFenBing (A : Astro) (y : LunarYear) := y.getZaoByGan A 2 ['几', '人', '分', '饼']
/-- `lunar_python/LunarYear.py` 264-269 -/
def getDeJin (A : Astro) (y : LunarYear) := y.getZaoByGan A 7 ['几', '日', '得', '金']
/-- `lunar_python/LunarYear.py` 271-272 -/
def getRenBing (A : Astro) (y : LunarYear) : Except PyErr PyStr := do
  y.getZaoByGan A 2 (← y.getZaoByZhi A 2 ['几', '人', '几', '丙'])
/-- `lunar_python/LunarYear.py` 274-275 -/
def getRenChu (A : Astro) (y : LunarYear) : Except PyErr PyStr := do
  y.getZaoByGan A 3 (← y.getZaoByZhi A 2 ['几', '人', '几', '锄'])

end LunarYear
