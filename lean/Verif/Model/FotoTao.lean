import Verif.Model.FotoTables
import Verif.Model.LunarDay
import Verif.Model.TaoTables

/-! # `Foto.py`, `Tao.py`: the Buddhist and the Taoist calendar -/

/-- `lunar_python/Foto.py` 13-14: the object -/
structure Foto where
  lunar : Lunar
  deriving DecidableEq, Repr

/-- `lunar_python/util/FotoUtil.py` 19-27 `getXiu` -/
def FotoUtil.getXiu (month day : ℤ) : Except PyErr PyStr := do
  let offset ← pyIndex XIU_OFFSET (|month| - 1)
  pyIndex XIU_27 ((offset + day - 1) % XIU_27.length)

namespace Foto
open LunarUtil

/-- `lunar_python/Foto.py` 11 `DEAD_YEAR` -/
def DEAD_YEAR : ℤ := -543

/-- `lunar_python/Foto.py` 20-22 `fromYmdHms` (with `fromLunar`, 16-18) -/
def fromYmdHms (A : Astro) (year month day hour minute second : ℤ) : Except PyErr Foto := do
  return ⟨← Lunar.fromYmdHms A (year + DEAD_YEAR - 1) month day hour minute second⟩
/-- `lunar_python/Foto.py` 24-26 `fromYmd` -/
def fromYmd (A : Astro) (year month day : ℤ) : Except PyErr Foto := fromYmdHms A year month day 0 0 0

/-- `lunar_python/Foto.py` 31-36 -/
def getYear (f : Foto) : ℤ :=
  let sy := f.lunar.solar.year
  let y := sy - DEAD_YEAR
  if sy = f.lunar.year then y + 1 else y
/-- `lunar_python/Foto.py` 38-39 -/
def getMonth (f : Foto) : ℤ := f.lunar.month
/-- `lunar_python/Foto.py` 41-42 -/
def getDay (f : Foto) : ℤ := f.lunar.day
/-- `lunar_python/Foto.py` 44-49 -/
def getYearInChinese (f : Foto) : Except PyErr PyStr := Lunar.yearDigits f.getYear
/-- `lunar_python/Foto.py` 51-52 -/
def getMonthInChinese (f : Foto) := f.lunar.getMonthInChinese
/-- `lunar_python/Foto.py` 54-55 -/
def getDayInChinese (f : Foto) := f.lunar.getDayInChinese
/-- `lunar_python/Foto.py` 57-64 -/
def getFestivals (f : Foto) : List FotoFestival :=
  (pyDictGet FotoUtil.FESTIVAL (Lunar.md |f.getMonth| f.getDay)).getD []
/-- `lunar_python/Foto.py` 66-76 -/
def getOtherFestivals (f : Foto) : List PyStr :=
  (pyDictGet FotoUtil.OTHER_FESTIVAL (Lunar.md f.getMonth f.getDay)).getD []
/-- `lunar_python/Foto.py` 78-80 -/
def isMonthZhai (f : Foto) : Bool := 1 = f.getMonth || 5 = f.getMonth || 9 = f.getMonth
/-- `lunar_python/Foto.py` 82-86 -/
def isDayYangGong (f : Foto) : Bool := f.getFestivals.any (fun x => ['杨', '公', '忌'] = x.name)
/-- `lunar_python/Foto.py` 88-90 -/
def isDayZhaiShuoWang (f : Foto) : Bool := 1 = f.getDay || 15 = f.getDay
/-- `lunar_python/Foto.py` 92-99 -/
def isDayZhaiSix (A : Astro) (f : Foto) : Bool :=
  let d := f.getDay
  if 8 = d || 14 = d || 15 = d || 23 = d || 29 = d || 30 = d then true
  else if 28 = d then
    match LunarMonth.fromYm A f.lunar.year f.getMonth with
    | none => false
    | some m => 30 ≠ m.dayCount
  else false
/-- `lunar_python/Foto.py` 101-103 -/
def isDayZhaiTen (f : Foto) : Bool :=
  let d := f.getDay
  1 = d || 8 = d || 14 = d || 15 = d || 18 = d || 23 = d || 24 = d || 28 = d || 29 = d || 30 = d
/-- `lunar_python/Foto.py` 105-110 -/
def isDayZhaiGuanYin (f : Foto) : Bool :=
  FotoUtil.DAY_ZHAI_GUAN_YIN.any (fun d => Lunar.md f.getMonth f.getDay = d)
/-- `lunar_python/Foto.py` 112-113 -/
def getXiu (f : Foto) : Except PyErr PyStr := FotoUtil.getXiu f.getMonth f.getDay
/-- `lunar_python/Foto.py` 115-116 -/
def getXiuLuck (f : Foto) : Except PyErr PyStr := do pyDict XIU_LUCK (← f.getXiu)
/-- `lunar_python/Foto.py` 118-119 -/
def getXiuSong (f : Foto) : Except PyErr PyStr := do pyDict XIU_SONG (← f.getXiu)
/-- `lunar_python/Foto.py` 121-122 -/
def getZheng (f : Foto) : Except PyErr PyStr := do pyDict ZHENG (← f.getXiu)
/-- `lunar_python/Foto.py` 124-125 -/
def getAnimal (f : Foto) : Except PyErr PyStr := do pyDict ANIMAL (← f.getXiu)
/-- `lunar_python/Foto.py` 127-128 -/
def getGong (f : Foto) : Except PyErr PyStr := do pyDict GONG (← f.getXiu)
/-- `lunar_python/Foto.py` 130-131 -/
def getShou (f : Foto) : Except PyErr PyStr := do pyDict SHOU (← f.getGong)
/-- `lunar_python/Foto.py` 136-137 -/
def toString (f : Foto) : Except PyErr PyStr := do
  return (← f.getYearInChinese) ++ ['年'] ++ (← f.getMonthInChinese) ++ ['月'] ++ (← f.getDayInChinese)
/-- `lunar_python/Foto.py` 139-143; `"%s" % f` is `FotoFestival.__str__`, the name -/
def toFullString (f : Foto) : Except PyErr PyStr := do
  return (← f.toString) ++ (f.getFestivals.map (fun x => [' ', '('] ++ x.name ++ [')'])).flatten

end Foto

/-- `lunar_python/Tao.py` 13-14: the object -/
structure Tao where
  lunar : Lunar
  deriving DecidableEq, Repr

namespace Tao

/-- `lunar_python/Tao.py` 11 `BIRTH_YEAR` -/
def BIRTH_YEAR : ℤ := -2697

/-- `lunar_python/Tao.py` 20-22 `fromYmdHms` (with `fromLunar`, 16-18) -/
def fromYmdHms (A : Astro) (year month day hour minute second : ℤ) : Except PyErr Tao := do
  return ⟨← Lunar.fromYmdHms A (year + BIRTH_YEAR) month day hour minute second⟩
/-- `lunar_python/Tao.py` 24-26 `fromYmd` -/
def fromYmd (A : Astro) (year month day : ℤ) : Except PyErr Tao := fromYmdHms A year month day 0 0 0

/-- `lunar_python/Tao.py` 31-32 -/
def getYear (t : Tao) : ℤ := t.lunar.year - BIRTH_YEAR
/-- `lunar_python/Tao.py` 34-35 -/
def getMonth (t : Tao) : ℤ := t.lunar.month
/-- `lunar_python/Tao.py` 37-38 -/
def getDay (t : Tao) : ℤ := t.lunar.day
/-- `lunar_python/Tao.py` 40-45 -/
def getYearInChinese (t : Tao) : Except PyErr PyStr := Lunar.yearDigits t.getYear
/-- `lunar_python/Tao.py` 47-48 -/
def getMonthInChinese (t : Tao) := t.lunar.getMonthInChinese
/-- `lunar_python/Tao.py` 50-51 -/
def getDayInChinese (t : Tao) := t.lunar.getDayInChinese
/-- `lunar_python/Tao.py` 53-72 -/
def getFestivals (t : Tao) : Except PyErr (List TaoFestival) := do
  let festivals := (pyDictGet TaoUtil.FESTIVAL (Lunar.md t.getMonth t.getDay)).getD []
  let jq ← t.lunar.getJieQi
  let festivals :=
    if ['冬', '至'] = jq then festivals ++ [⟨['元', '始', '天', '尊', '圣', '诞'], []⟩]
    else if ['夏', '至'] = jq then festivals ++ [⟨['灵', '宝', '天', '尊', '圣', '诞'], []⟩]
    else festivals
  let festivals := festivals ++ (pyDictGet TaoUtil.BA_JIE jq).toList.map (fun s => ⟨s, []⟩)
  let gz ← t.lunar.getDayInGanZhi
  return festivals ++ (pyDictGet TaoUtil.BA_HUI gz).toList.map (fun s => ⟨s, []⟩)
/-- `lunar_python/Tao.py` 74-79 `__isDayIn` -/
def isDayIn (t : Tao) (days : List PyStr) : Bool := days.any (fun d => Lunar.md t.getMonth t.getDay = d)
/-- `lunar_python/Tao.py` 81-82 -/
def isDaySanHui (t : Tao) : Bool := t.isDayIn TaoUtil.SAN_HUI
/-- `lunar_python/Tao.py` 84-85 -/
def isDaySanYuan (t : Tao) : Bool := t.isDayIn TaoUtil.SAN_YUAN
/-- `lunar_python/Tao.py` 87-88 -/
def isDayBaJie (t : Tao) : Except PyErr Bool := do return (pyDictGet TaoUtil.BA_JIE (← t.lunar.getJieQi)).isSome
/-- `lunar_python/Tao.py` 90-91 -/
def isDayWuLa (t : Tao) : Bool := t.isDayIn TaoUtil.WU_LA
/-- `lunar_python/Tao.py` 93-94 -/
def isDayBaHui (t : Tao) : Except PyErr Bool := do return (pyDictGet TaoUtil.BA_HUI (← t.lunar.getDayInGanZhi)).isSome
/-- `lunar_python/Tao.py` 96-97 -/
def isDayMingWu (t : Tao) : Except PyErr Bool := do return ['戊'] = (← t.lunar.getDayGan)
/-- `lunar_python/Tao.py` 99-100 -/
def isDayAnWu (t : Tao) : Except PyErr Bool := do
  return (← t.lunar.getDayZhi) = (← pyIndex TaoUtil.AN_WU (|t.getMonth| - 1))
/-- `lunar_python/Tao.py` 102-103 (`or` does not evaluate its right side when the left is true) -/
def isDayWu (t : Tao) : Except PyErr Bool := do if ← t.isDayMingWu then return true else t.isDayAnWu
/-- `lunar_python/Tao.py` 105-121; `in` is the substring test -/
def isDayTianShe (t : Tao) : Except PyErr Bool := do
  let mz ← t.lunar.getMonthZhi
  let dgz ← t.lunar.getDayInGanZhi
  return if (pyFind mz ['寅', '卯', '辰']).isSome then ['戊', '寅'] = dgz
    else if (pyFind mz ['巳', '午', '未']).isSome then ['甲', '午'] = dgz
    else if (pyFind mz ['申', '酉', '戌']).isSome then ['戊', '申'] = dgz
    else if (pyFind mz ['亥', '子', '丑']).isSome then ['甲', '子'] = dgz
    else false
/-- `lunar_python/Tao.py` 126-127 -/
def toString (t : Tao) : Except PyErr PyStr := do
  return (← t.getYearInChinese) ++ ['年'] ++ (← t.getMonthInChinese) ++ ['月'] ++ (← t.getDayInChinese)
/-- `lunar_python/Tao.py` 129-130 -/
def toFullString (t : Tao) : Except PyErr PyStr := do
  return ['道', '歷'] ++ (← t.getYearInChinese) ++ ['年', '，', '天', '运'] ++ (← t.lunar.getYearInGanZhi) ++ ['年', '，'] ++
    (← t.lunar.getMonthInGanZhi) ++ ['月', '，'] ++ (← t.lunar.getDayInGanZhi) ++ ['日', '。'] ++ (← t.getMonthInChinese) ++
    ['月'] ++ (← t.getDayInChinese) ++ ['日', '，'] ++ (← t.lunar.getTimeZhi) ++ ['時', '。']

end Tao
