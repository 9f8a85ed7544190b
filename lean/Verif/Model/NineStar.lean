import Verif.Model.LunarYear
import Verif.Model.NineStarTables

/-! # `NineStar.py` and the star of a year, month, day and hour -/

/-- `lunar_python/NineStar.py` 25-30: the object -/
structure NineStar where
  index : ℤ
  deriving DecidableEq, Repr

namespace NineStar

/-- `lunar_python/NineStar.py` 32-33 -/
def getNumber (s : NineStar) := pyIndex NUMBER s.index
/-- `lunar_python/NineStar.py` 35-36 -/
def getColor (s : NineStar) := pyIndex COLOR s.index
/-- `lunar_python/NineStar.py` 38-39 -/
def getWuXing (s : NineStar) := pyIndex WU_XING s.index
/-- `lunar_python/NineStar.py` 41-42 -/
def getPosition (s : NineStar) := pyIndex POSITION s.index
/-- `lunar_python/NineStar.py` 44-45 -/
def getPositionDesc (s : NineStar) : Except PyErr PyStr := do pyDict LunarUtil.POSITION_DESC (← s.getPosition)
/-- `lunar_python/NineStar.py` 47-48 -/
def getNameInXuanKong (s : NineStar) := pyIndex NAME_XUAN_KONG s.index
/-- `lunar_python/NineStar.py` 50-51 -/
def getNameInBeiDou (s : NineStar) := pyIndex NAME_BEI_DOU s.index
/-- `lunar_python/NineStar.py` 53-54 -/
def getNameInQiMen (s : NineStar) := pyIndex NAME_QI_MEN s.index
/-- `lunar_python/NineStar.py` 56-57 -/
def getNameInTaiYi (s : NineStar) := pyIndex NAME_TAI_YI s.index
/-- `lunar_python/NineStar.py` 59-60 -/
def getLuckInQiMen (s : NineStar) := pyIndex LUCK_QI_MEN s.index
/-- `lunar_python/NineStar.py` 62-63 -/
def getLuckInXuanKong (s : NineStar) := pyIndex LUCK_XUAN_KONG s.index
/-- `lunar_python/NineStar.py` 65-66 -/
def getYinYangInQiMen (s : NineStar) := pyIndex YIN_YANG_QI_MEN s.index
/-- `lunar_python/NineStar.py` 68-69 -/
def getTypeInTaiYi (s : NineStar) := pyIndex TYPE_TAI_YI s.index
/-- `lunar_python/NineStar.py` 71-72 -/
def getBaMenInQiMen (s : NineStar) := pyIndex BA_MEN_QI_MEN s.index
/-- `lunar_python/NineStar.py` 74-75 -/
def getSongInTaiYi (s : NineStar) := pyIndex SONG_TAI_YI s.index

/-- `lunar_python/NineStar.py` 83-84 `toString` -/
def toString (s : NineStar) : Except PyErr PyStr := do
  return (← s.getNumber) ++ (← s.getColor) ++ (← s.getWuXing) ++ (← s.getNameInBeiDou)

/-- `lunar_python/NineStar.py` 86-115 `toFullString` -/
def toFullString (s : NineStar) : Except PyErr PyStr := do
  let t := (← s.getNumber) ++ (← s.getColor) ++ (← s.getWuXing) ++ [' '] ++ (← s.getPosition) ++ ['('] ++
    (← s.getPositionDesc) ++ [')', ' '] ++ (← s.getNameInBeiDou) ++ [' ', '玄', '空', '['] ++ (← s.getNameInXuanKong) ++
    [' '] ++ (← s.getLuckInXuanKong) ++ [']', ' ', '奇', '门', '['] ++ (← s.getNameInQiMen) ++ [' '] ++ (← s.getLuckInQiMen)
  let men ← s.getBaMenInQiMen
  let t := if men.length > 0 then t ++ [' '] ++ men ++ ['门'] else t
  return t ++ [' '] ++ (← s.getYinYangInQiMen) ++ [']', ' ', '太', '乙', '['] ++ (← s.getNameInTaiYi) ++ [' '] ++
    (← s.getTypeInTaiYi) ++ [']']

end NineStar

/-- `lunar_python/LunarYear.py` 148-155 `getGan`, `getZhi`, `getGanZhi` -/
def LunarYear.getGanZhi (y : LunarYear) : Except PyErr PyStr := do
  let gan ← pyIndex LunarUtil.GAN (y.ganIndex + 1)
  let zhi ← pyIndex LunarUtil.ZHI (y.zhiIndex + 1)
  return gan ++ zhi

/-- `lunar_python/LunarYear.py` 277-278 `getYuan` -/
def LunarYear.getYuan (y : LunarYear) : Except PyErr PyStr := do
  return (← pyIndex LunarYear.YUAN ((y.year + 2696).tdiv 60 % 3)) ++ ['元']

/-- `lunar_python/LunarYear.py` 280-281 `getYun` -/
def LunarYear.getYun (y : LunarYear) : Except PyErr PyStr := do
  return (← pyIndex LunarYear.YUN ((y.year + 2696).tdiv 20 % 9)) ++ ['运']

/-- `lunar_python/LunarYear.py` 283-289 `getNineStar` -/
def LunarYear.getNineStar (y : LunarYear) : Except PyErr NineStar := do
  let index := LunarUtil.getJiaZiIndex (← y.getGanZhi) + 1
  let yuan := (y.year + 2696).tdiv 60 % 3
  let offset := (62 + yuan * 3 - index) % 9
  let offset := if 0 = offset then 9 else offset
  return ⟨offset - 1⟩

/-- `lunar_python/LunarMonth.py` 103-111 `getNineStar` -/
def LunarMonth.getNineStar (A : Astro) (mo : LunarMonth) : NineStar :=
  let index := (LunarYear.make A mo.year).zhiIndex % 3
  let m := |mo.month|
  let month_zhi_index := (13 + m) % 12
  let n := 27 - index * 3
  let n := if month_zhi_index < LunarUtil.BASE_MONTH_ZHI_INDEX then n - 3 else n
  ⟨(n - month_zhi_index) % 9⟩

namespace Lunar
open LunarUtil

/-- `lunar_python/Lunar.py` 813-825 `__getYearNineStar` -/
def yearNineStar (l : Lunar) (year_in_gan_zhi : PyStr) : Except PyErr NineStar := do
  let index_exact := getJiaZiIndex year_in_gan_zhi + 1
  let index := getJiaZiIndex (← l.getYearInGanZhi) + 1
  let year_offset := index_exact - index
  let year_offset := if year_offset > 1 then year_offset - 60 else if year_offset < -1 then year_offset + 60 else year_offset
  let yuan := (l.year + year_offset + 2696).tdiv 60 % 3
  let offset := (62 + yuan * 3 - index_exact) % 9
  let offset := if 0 = offset then 9 else offset
  return ⟨offset - 1⟩

/-- `lunar_python/Lunar.py` 827-834 `getYearNineStar` -/
def getYearNineStar (l : Lunar) (sect : ℤ := 2) : Except PyErr NineStar := do
  let year_in_gan_zhi ←
    if 1 = sect then l.getYearInGanZhi
    else if 3 = sect then l.getYearInGanZhiExact
    else l.getYearInGanZhiByLiChun
  l.yearNineStar year_in_gan_zhi

/-- `lunar_python/Lunar.py` 836-843 `__getMonthNineStar` -/
def monthNineStar (year_zhi_index month_zhi_index : ℤ) : NineStar :=
  let index := year_zhi_index % 3
  let n := 27 - index * 3
  let n := if month_zhi_index < BASE_MONTH_ZHI_INDEX then n - 3 else n
  ⟨(n - month_zhi_index) % 9⟩

/-- `lunar_python/Lunar.py` 845-855 `getMonthNineStar` -/
def getMonthNineStar (l : Lunar) (sect : ℤ := 2) : NineStar :=
  if 1 = sect then monthNineStar l.yearZhiIndex l.monthZhiIndex
  else if 3 = sect then monthNineStar l.yearZhiIndexExact l.monthZhiIndexExact
  else monthNineStar l.yearZhiIndexByLiChun l.monthZhiIndex

/-- the blocks `lunar_python/Lunar.py` 867-880: from a day with pillar number `index` to the nearest 甲子 day -/
def nearJiaZi (s : Solar) (index : ℤ) : Except PyErr Solar :=
  if index > 29 then s.next (60 - index) else s.next (-index)

/-- `lunar_python/Lunar.py` 857-891 `getDayNineStar` -/
def getDayNineStar (A : Astro) (l : Lunar) : Except PyErr NineStar := do
  let solar_ymd := l.solar.toYmd
  let dong_zhi ← term l.jieQi ['冬', '至']
  let dong_zhi2 ← term l.jieQi ['D', 'O', 'N', 'G', '_', 'Z', 'H', 'I']
  let xia_zhi ← term l.jieQi ['夏', '至']
  let dong_zhi_index := getJiaZiIndex (← (← Lunar.fromSolar A dong_zhi).getDayInGanZhi)
  let dong_zhi_index2 := getJiaZiIndex (← (← Lunar.fromSolar A dong_zhi2).getDayInGanZhi)
  let xia_zhi_index := getJiaZiIndex (← (← Lunar.fromSolar A xia_zhi).getDayInGanZhi)
  let solar_shun_bai ← nearJiaZi dong_zhi dong_zhi_index
  let solar_shun_bai2 ← nearJiaZi dong_zhi2 dong_zhi_index2
  let solar_ni_zi ← nearJiaZi xia_zhi xia_zhi_index
  if strLe solar_shun_bai.toYmd solar_ymd && strLt solar_ymd solar_ni_zi.toYmd then
    return ⟨(← l.solar.subtract solar_shun_bai) % 9⟩
  else if strLe solar_ni_zi.toYmd solar_ymd && strLt solar_ymd solar_shun_bai2.toYmd then
    return ⟨8 - (← l.solar.subtract solar_ni_zi) % 9⟩
  else if strLe solar_shun_bai2.toYmd solar_ymd then
    return ⟨(← l.solar.subtract solar_shun_bai2) % 9⟩
  else if strLt solar_ymd solar_shun_bai.toYmd then
    return ⟨(8 + (← solar_shun_bai.subtract l.solar)) % 9⟩
  else return ⟨0⟩

/-- `lunar_python/Lunar.py` 285-286 `getDayZhi` -/
def getDayZhi (l : Lunar) : Except PyErr PyStr := pyIndex ZHI (l.dayZhiIndex + 1)

/-- `lunar_python/Lunar.py` 893-907 `getTimeNineStar`; `day_zhi` is one character, so `in` is membership -/
def getTimeNineStar (l : Lunar) : Except PyErr NineStar := do
  let solar_ymd := l.solar.toYmd
  let asc ←
    if strLe (← term l.jieQi ['冬', '至']).toYmd solar_ymd && strLt solar_ymd (← term l.jieQi ['夏', '至']).toYmd then pure true
    else pure (strLe (← term l.jieQi ['D', 'O', 'N', 'G', '_', 'Z', 'H', 'I']).toYmd solar_ymd)
  let day_zhi ← l.getDayZhi
  let start : ℤ :=
    if day_zhi ∈ [['子'], ['午'], ['卯'], ['酉']] then (if asc then 0 else 8)
    else if day_zhi ∈ [['辰'], ['戌'], ['丑'], ['未']] then (if asc then 3 else 5)
    else if asc then 6 else 2
  let index := if asc then start + l.timeZhiIndex else start + 9 - l.timeZhiIndex
  return ⟨index % 9⟩

end Lunar
