import Verif.Model.LunarDay
import Verif.Model.YiJi

/-! # `LunarTime.py`: a double-hour of a lunar day -/

/-- `lunar_python/LunarTime.py` 11-15: the fields -/
structure LunarTime where
  lunar : Lunar
  zhiIndex : ℤ
  ganIndex : ℤ

namespace LunarTime
open LunarUtil

/-- `lunar_python/LunarTime.py` 11-19: the constructor and `fromYmdHms` -/
def fromYmdHms (A : Astro) (lunar_year lunar_month lunar_day hour minute second : ℤ) : Except PyErr LunarTime := do
  let lunar ← Lunar.fromYmdHms A lunar_year lunar_month lunar_day hour minute second
  let zhiIndex := getTimeZhiIndex (fmtD 2 hour ++ [':'] ++ fmtD 2 minute)
  let ganIndex := (lunar.dayGanIndexExact % 5 * 2 + zhiIndex) % 10
  return ⟨lunar, zhiIndex, ganIndex⟩

/-- `lunar_python/LunarTime.py` 21-22 -/
def getGan (t : LunarTime) := pyIndex GAN (t.ganIndex + 1)
/-- `lunar_python/LunarTime.py` 24-25 -/
def getZhi (t : LunarTime) := pyIndex ZHI (t.zhiIndex + 1)
/-- `lunar_python/LunarTime.py` 27-28 -/
def getGanZhi (t : LunarTime) : Except PyErr PyStr := do
  return (← t.getGan) ++ (← t.getZhi)
/-- `lunar_python/LunarTime.py` 30-31 -/
def getShengXiao (t : LunarTime) := pyIndex SHENGXIAO (t.zhiIndex + 1)
/-- `lunar_python/LunarTime.py` 33-34 -/
def getPositionXi (t : LunarTime) := pyIndex POSITION_XI (t.ganIndex + 1)
/-- `lunar_python/LunarTime.py` 36-37 -/
def getPositionXiDesc (t : LunarTime) := Lunar.desc t.getPositionXi
/-- `lunar_python/LunarTime.py` 39-40 -/
def getPositionYangGui (t : LunarTime) := pyIndex POSITION_YANG_GUI (t.ganIndex + 1)
/-- `lunar_python/LunarTime.py` 42-43 -/
def getPositionYangGuiDesc (t : LunarTime) := Lunar.desc t.getPositionYangGui
/-- `lunar_python/LunarTime.py` 45-46 -/
def getPositionYinGui (t : LunarTime) := pyIndex POSITION_YIN_GUI (t.ganIndex + 1)
/-- `lunar_python/LunarTime.py` 48-49 -/
def getPositionYinGuiDesc (t : LunarTime) := Lunar.desc t.getPositionYinGui
/-- `lunar_python/LunarTime.py` 51-52 -/
def getPositionFu (t : LunarTime) (sect : ℤ := 2) := pyIndex (if 1 = sect then POSITION_FU else POSITION_FU_2) (t.ganIndex + 1)
/-- `lunar_python/LunarTime.py` 54-55 -/
def getPositionFuDesc (t : LunarTime) (sect : ℤ := 2) := Lunar.desc (t.getPositionFu sect)
/-- `lunar_python/LunarTime.py` 57-58 -/
def getPositionCai (t : LunarTime) := pyIndex POSITION_CAI (t.ganIndex + 1)
/-- `lunar_python/LunarTime.py` 60-61 -/
def getPositionCaiDesc (t : LunarTime) := Lunar.desc t.getPositionCai
/-- `lunar_python/LunarTime.py` 63-64 -/
def getChong (t : LunarTime) := pyIndex CHONG t.zhiIndex
/-- `lunar_python/LunarTime.py` 66-67 -/
def getChongGan (t : LunarTime) := pyIndex CHONG_GAN t.ganIndex
/-- `lunar_python/LunarTime.py` 69-70 -/
def getChongGanTie (t : LunarTime) := pyIndex CHONG_GAN_TIE t.ganIndex
/-- `lunar_python/LunarTime.py` 72-77 -/
def getChongShengXiao (t : LunarTime) : Except PyErr PyStr := do Lunar.shengXiaoOf (← t.getChong)
/-- `lunar_python/LunarTime.py` 79-80 -/
def getChongDesc (t : LunarTime) : Except PyErr PyStr := do
  return ['('] ++ (← t.getChongGan) ++ (← t.getChong) ++ [')'] ++ (← t.getChongShengXiao)
/-- `lunar_python/LunarTime.py` 82-83 -/
def getSha (t : LunarTime) : Except PyErr PyStr := do pyDict SHA (← t.getZhi)
/-- `lunar_python/LunarTime.py` 85-86 -/
def getNaYin (t : LunarTime) : Except PyErr PyStr := do pyDict NAYIN (← t.getGanZhi)
/-- `lunar_python/LunarTime.py` 88-89 -/
def getTianShen (t : LunarTime) : Except PyErr PyStr := do
  pyIndex TIAN_SHEN ((t.zhiIndex + (← pyDict ZHI_TIAN_SHEN_OFFSET (← t.lunar.getDayZhiExact))) % 12 + 1)
/-- `lunar_python/LunarTime.py` 91-92 -/
def getTianShenType (t : LunarTime) : Except PyErr PyStr := do pyDict TIAN_SHEN_TYPE (← t.getTianShen)
/-- `lunar_python/LunarTime.py` 94-95 -/
def getTianShenLuck (t : LunarTime) : Except PyErr PyStr := do pyDict TIAN_SHEN_TYPE_LUCK (← t.getTianShenType)
/-- `lunar_python/LunarTime.py` 97-102 -/
def getYi (t : LunarTime) : Except PyErr (List PyStr) := do LunarUtil.getTimeYi (← t.lunar.getDayInGanZhiExact) (← t.getGanZhi)
/-- `lunar_python/LunarTime.py` 104-109 -/
def getJi (t : LunarTime) : Except PyErr (List PyStr) := do LunarUtil.getTimeJi (← t.lunar.getDayInGanZhiExact) (← t.getGanZhi)
/-- `lunar_python/LunarTime.py` 111-129: after the lookup of `jie_qi["冬至"]` (a `Solar`) it is compared with the string
`solar_ymd` by `<=`; `Solar` has no comparison methods and `str` does not compare with it, so Python raises `TypeError`
and the lines after it are never reached -/
def getNineStar (t : LunarTime) : Except PyErr NineStar := do
  let _ ← Lunar.term t.lunar.jieQi ['冬', '至']
  .error .typeError
/-- `lunar_python/LunarTime.py` 140-141 -/
def toString (t : LunarTime) := t.getGanZhi
/-- `lunar_python/LunarTime.py` 143-148 -/
def getXun (t : LunarTime) : Except PyErr PyStr := do LunarUtil.getXun (← t.getGanZhi)
/-- `lunar_python/LunarTime.py` 150-155 -/
def getXunKong (t : LunarTime) : Except PyErr PyStr := do LunarUtil.getXunKong (← t.getGanZhi)
/-- `lunar_python/LunarTime.py` 157-163 -/
def getMinHm (t : LunarTime) : PyStr := 
  let hour := t.lunar.hour
  if hour < 1 then ['0', '0', ':', '0', '0']
  else if hour > 22 then ['2', '3', ':', '0', '0']
  else fmtD 2 (if hour % 2 = 0 then hour - 1 else hour) ++ [':', '0', '0']
/-- `lunar_python/LunarTime.py` 165-171 -/
def getMaxHm (t : LunarTime) : PyStr := 
  let hour := t.lunar.hour
  if hour < 1 then ['0', '0', ':', '5', '9']
  else if hour > 22 then ['2', '3', ':', '5', '9']
  else fmtD 2 (if hour % 2 ≠ 0 then hour + 1 else hour) ++ [':', '5', '9']

end LunarTime

namespace Lunar

/-- `lunar_python/Lunar.py` 1387-1392 -/
def getTime (A : Astro) (l : Lunar) : Except PyErr LunarTime := LunarTime.fromYmdHms A l.year l.month l.day l.hour l.minute l.second

/-- `lunar_python/Lunar.py` 1394-1402 -/
def getTimes (A : Astro) (l : Lunar) : Except PyErr (List LunarTime) := do
  let t ← LunarTime.fromYmdHms A l.year l.month l.day 0 0 0
  let ts ← (pyRange 0 12).mapM (fun i => LunarTime.fromYmdHms A l.year l.month l.day ((i + 1) * 2 - 1) 0 0)
  return t :: ts

end Lunar
