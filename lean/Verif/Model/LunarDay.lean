import Verif.Model.EightChar
import Verif.Model.MoreTables
import Verif.Model.NineStar

/-! # `Lunar.py`: the remaining getters of a day

Aliases (`getPositionXi` for `getDayPositionXi` and so on, `lunar_python/Lunar.py` 353-381, 512-540, 556-566) are
not repeated. -/

namespace Lunar
open LunarUtil

/-- `lunar_python/Lunar.py` 231-232 -/
def getYearGan (l : Lunar) := pyIndex GAN (l.yearGanIndex + 1)
/-- `lunar_python/Lunar.py` 234-235 -/
def getYearGanByLiChun (l : Lunar) := pyIndex GAN (l.yearGanIndexByLiChun + 1)
/-- `lunar_python/Lunar.py` 237-238 -/
def getYearGanExact (l : Lunar) := pyIndex GAN (l.yearGanIndexExact + 1)
/-- `lunar_python/Lunar.py` 240-241 -/
def getYearZhi (l : Lunar) := pyIndex ZHI (l.yearZhiIndex + 1)
/-- `lunar_python/Lunar.py` 243-244 -/
def getYearZhiByLiChun (l : Lunar) := pyIndex ZHI (l.yearZhiIndexByLiChun + 1)
/-- `lunar_python/Lunar.py` 246-247 -/
def getYearZhiExact (l : Lunar) := pyIndex ZHI (l.yearZhiIndexExact + 1)
/-- `lunar_python/Lunar.py` 258-259 -/
def getMonthGan (l : Lunar) := pyIndex GAN (l.monthGanIndex + 1)
/-- `lunar_python/Lunar.py` 261-262 -/
def getMonthGanExact (l : Lunar) := pyIndex GAN (l.monthGanIndexExact + 1)
/-- `lunar_python/Lunar.py` 264-265 -/
def getMonthZhi (l : Lunar) := pyIndex ZHI (l.monthZhiIndex + 1)
/-- `lunar_python/Lunar.py` 267-268 -/
def getMonthZhiExact (l : Lunar) := pyIndex ZHI (l.monthZhiIndexExact + 1)
/-- `lunar_python/Lunar.py` 276-277 -/
def getDayGan (l : Lunar) := pyIndex GAN (l.dayGanIndex + 1)
/-- `lunar_python/Lunar.py` 279-280 -/
def getDayGanExact (l : Lunar) := pyIndex GAN (l.dayGanIndexExact + 1)
/-- `lunar_python/Lunar.py` 282-283 -/
def getDayGanExact2 (l : Lunar) := pyIndex GAN (l.dayGanIndexExact2 + 1)
/-- `lunar_python/Lunar.py` 288-289 -/
def getDayZhiExact (l : Lunar) := pyIndex ZHI (l.dayZhiIndexExact + 1)
/-- `lunar_python/Lunar.py` 291-292 -/
def getDayZhiExact2 (l : Lunar) := pyIndex ZHI (l.dayZhiIndexExact2 + 1)
/-- `lunar_python/Lunar.py` 303-304 -/
def getTimeGan (l : Lunar) := pyIndex GAN (l.timeGanIndex + 1)
/-- `lunar_python/Lunar.py` 306-307 -/
def getTimeZhi (l : Lunar) := pyIndex ZHI (l.timeZhiIndex + 1)
/-- `lunar_python/Lunar.py` 312-313 -/
def getYearShengXiao (l : Lunar) := pyIndex SHENGXIAO (l.yearZhiIndex + 1)
/-- `lunar_python/Lunar.py` 315-316 -/
def getYearShengXiaoByLiChun (l : Lunar) := pyIndex SHENGXIAO (l.yearZhiIndexByLiChun + 1)
/-- `lunar_python/Lunar.py` 318-319 -/
def getYearShengXiaoExact (l : Lunar) := pyIndex SHENGXIAO (l.yearZhiIndexExact + 1)
/-- `lunar_python/Lunar.py` 321-322 -/
def getMonthShengXiao (l : Lunar) := pyIndex SHENGXIAO (l.monthZhiIndex + 1)
/-- `lunar_python/Lunar.py` 324-325 -/
def getMonthShengXiaoExact (l : Lunar) := pyIndex SHENGXIAO (l.monthZhiIndexExact + 1)
/-- `lunar_python/Lunar.py` 327-328 -/
def getDayShengXiao (l : Lunar) := pyIndex SHENGXIAO (l.dayZhiIndex + 1)
/-- `lunar_python/Lunar.py` 330-331 -/
def getTimeShengXiao (l : Lunar) := pyIndex SHENGXIAO (l.timeZhiIndex + 1)

/-- the digits of `lunar_python/Lunar.py` 333-338 (also `Foto.py` 44-49, `Tao.py` 40-45): `NUMBER[ord(c) - 48]` for each
character of `str(y)`; a minus sign (45) indexes from the end -/
def yearDigits (y : ℤ) : Except PyErr PyStr := do
  return (← (pyStrInt y).mapM (fun c => pyIndex NUMBER ((c.toNat : ℤ) - 48))).flatten

/-- `lunar_python/Lunar.py` 333-338 -/
def getYearInChinese (l : Lunar) : Except PyErr PyStr := yearDigits l.year
/-- `lunar_python/Lunar.py` 340-342 -/
def getMonthInChinese (l : Lunar) : Except PyErr PyStr := do
  return (if l.month < 0 then ['闰'] else []) ++ (← pyIndex MONTH |l.month|)
/-- `lunar_python/Lunar.py` 344-345 -/
def getDayInChinese (l : Lunar) : Except PyErr PyStr := pyIndex DAY l.day
/-- `lunar_python/Lunar.py` 1134-1135 -/
def toString (l : Lunar) : Except PyErr PyStr := do
  return (← l.getYearInChinese) ++ ['年'] ++ (← l.getMonthInChinese) ++ ['月'] ++ (← l.getDayInChinese)

/-- `lunar_python/Lunar.py` 347-348 -/
def getPengZuGan (l : Lunar) := pyIndex PENG_ZU_GAN (l.dayGanIndex + 1)
/-- `lunar_python/Lunar.py` 350-351 -/
def getPengZuZhi (l : Lunar) := pyIndex PENG_ZU_ZHI (l.dayZhiIndex + 1)

/-- `LunarUtil.POSITION_DESC[...]` as in all `...Desc` (`lunar_python/Lunar.py` 386-411, 422-423, 449-450, 479-510) -/
def desc (p : Except PyErr PyStr) : Except PyErr PyStr := do pyDict POSITION_DESC (← p)

/-- `lunar_python/Lunar.py` 383-384 -/
def getDayPositionXi (l : Lunar) := pyIndex POSITION_XI (l.dayGanIndex + 1)
/-- `lunar_python/Lunar.py` 386-387 -/
def getDayPositionXiDesc (l : Lunar) := desc l.getDayPositionXi
/-- `lunar_python/Lunar.py` 389-390 -/
def getDayPositionYangGui (l : Lunar) := pyIndex POSITION_YANG_GUI (l.dayGanIndex + 1)
/-- `lunar_python/Lunar.py` 392-393 -/
def getDayPositionYangGuiDesc (l : Lunar) := desc l.getDayPositionYangGui
/-- `lunar_python/Lunar.py` 395-396 -/
def getDayPositionYinGui (l : Lunar) := pyIndex POSITION_YIN_GUI (l.dayGanIndex + 1)
/-- `lunar_python/Lunar.py` 398-399 -/
def getDayPositionYinGuiDesc (l : Lunar) := desc l.getDayPositionYinGui
/-- `lunar_python/Lunar.py` 401-402 -/
def getDayPositionFu (l : Lunar) (sect : ℤ := 2) := pyIndex (if 1 = sect then POSITION_FU else POSITION_FU_2) (l.dayGanIndex + 1)
/-- `lunar_python/Lunar.py` 404-405 -/
def getDayPositionFuDesc (l : Lunar) (sect : ℤ := 2) := desc (l.getDayPositionFu sect)
/-- `lunar_python/Lunar.py` 407-408 -/
def getDayPositionCai (l : Lunar) := pyIndex POSITION_CAI (l.dayGanIndex + 1)
/-- `lunar_python/Lunar.py` 410-411 -/
def getDayPositionCaiDesc (l : Lunar) := desc l.getDayPositionCai
/-- `lunar_python/Lunar.py` 482-483 -/
def getTimePositionXi (l : Lunar) := pyIndex POSITION_XI (l.timeGanIndex + 1)
/-- `lunar_python/Lunar.py` 485-486 -/
def getTimePositionXiDesc (l : Lunar) := desc l.getTimePositionXi
/-- `lunar_python/Lunar.py` 488-489 -/
def getTimePositionYangGui (l : Lunar) := pyIndex POSITION_YANG_GUI (l.timeGanIndex + 1)
/-- `lunar_python/Lunar.py` 491-492 -/
def getTimePositionYangGuiDesc (l : Lunar) := desc l.getTimePositionYangGui
/-- `lunar_python/Lunar.py` 494-495 -/
def getTimePositionYinGui (l : Lunar) := pyIndex POSITION_YIN_GUI (l.timeGanIndex + 1)
/-- `lunar_python/Lunar.py` 497-498 -/
def getTimePositionYinGuiDesc (l : Lunar) := desc l.getTimePositionYinGui
/-- `lunar_python/Lunar.py` 500-501 -/
def getTimePositionFu (l : Lunar) (sect : ℤ := 2) := pyIndex (if 1 = sect then POSITION_FU else POSITION_FU_2) (l.timeGanIndex + 1)
/-- `lunar_python/Lunar.py` 503-504 -/
def getTimePositionFuDesc (l : Lunar) (sect : ℤ := 2) := desc (l.getTimePositionFu sect)
/-- `lunar_python/Lunar.py` 506-507 -/
def getTimePositionCai (l : Lunar) := pyIndex POSITION_CAI (l.timeGanIndex + 1)
/-- `lunar_python/Lunar.py` 509-510 -/
def getTimePositionCaiDesc (l : Lunar) := desc l.getTimePositionCai

/-- `lunar_python/Lunar.py` 413-420 -/
def getYearPositionTaiSui (l : Lunar) (sect : ℤ := 2) : Except PyErr PyStr :=
  let year_zhi_index :=
    if 1 = sect then l.yearZhiIndex
    else if 3 = sect then l.yearZhiIndexExact
    else l.yearZhiIndexByLiChun
  pyIndex POSITION_TAI_SUI_YEAR year_zhi_index
/-- `lunar_python/Lunar.py` 422-423 -/
def getYearPositionTaiSuiDesc (l : Lunar) (sect : ℤ := 2) := desc (l.getYearPositionTaiSui sect)

/-- `lunar_python/Lunar.py` 425-438 `__getMonthPositionTaiSui` -/
def monthPositionTaiSui (month_zhi_index month_gan_index : ℤ) : Except PyErr PyStr :=
  let m := month_zhi_index - BASE_MONTH_ZHI_INDEX
  let m := if m < 0 then m + 12 else m
  let m := m % 4
  if 0 = m then .ok ['艮']
  else if 2 = m then .ok ['坤']
  else if 3 = m then .ok ['巽']
  else pyIndex POSITION_GAN month_gan_index
/-- `lunar_python/Lunar.py` 440-447 -/
def getMonthPositionTaiSui (l : Lunar) (sect : ℤ := 2) : Except PyErr PyStr :=
  if 3 = sect then monthPositionTaiSui l.monthZhiIndexExact l.monthGanIndexExact
  else monthPositionTaiSui l.monthZhiIndex l.monthGanIndex
/-- `lunar_python/Lunar.py` 449-450 -/
def getMonthPositionTaiSuiDesc (l : Lunar) (sect : ℤ := 2) := desc (l.getMonthPositionTaiSui sect)

/-- `lunar_python/Lunar.py` 452-465 `__getDayPositionTaiSui`; `in` is the substring test -/
def dayPositionTaiSui (day_in_gan_zhi : PyStr) (year_zhi_index : ℤ) : Except PyErr PyStr :=
  if (pyFind day_in_gan_zhi ['甲', '子', ',', '乙', '丑', ',', '丙', '寅', ',', '丁', '卯', ',', '戊', '辰', ',', '已', '巳']).isSome then .ok ['震']
  else if (pyFind day_in_gan_zhi ['丙', '子', ',', '丁', '丑', ',', '戊', '寅', ',', '已', '卯', ',', '庚', '辰', ',', '辛', '巳']).isSome then .ok ['离']
  else if (pyFind day_in_gan_zhi ['戊', '子', ',', '已', '丑', ',', '庚', '寅', ',', '辛', '卯', ',', '壬', '辰', ',', '癸', '巳']).isSome then .ok ['中']
  else if (pyFind day_in_gan_zhi ['庚', '子', ',', '辛', '丑', ',', '壬', '寅', ',', '癸', '卯', ',', '甲', '辰', ',', '乙', '巳']).isSome then .ok ['兑']
  else if (pyFind day_in_gan_zhi ['壬', '子', ',', '癸', '丑', ',', '甲', '寅', ',', '乙', '卯', ',', '丙', '辰', ',', '丁', '巳']).isSome then .ok ['坎']
  else pyIndex POSITION_TAI_SUI_YEAR year_zhi_index
/-- `lunar_python/Lunar.py` 467-477 -/
def getDayPositionTaiSui (l : Lunar) (sect : ℤ := 2) : Except PyErr PyStr := do
  if 1 = sect then dayPositionTaiSui (← l.getDayInGanZhi) l.yearZhiIndex
  else if 3 = sect then dayPositionTaiSui (← l.getDayInGanZhi) l.yearZhiIndexExact
  else dayPositionTaiSui (← l.getDayInGanZhiExact2) l.yearZhiIndexByLiChun
/-- `lunar_python/Lunar.py` 479-480 -/
def getDayPositionTaiSuiDesc (l : Lunar) (sect : ℤ := 2) := desc (l.getDayPositionTaiSui sect)

/-- the loops of `lunar_python/Lunar.py` 544-547, 551-554: the animal of a branch, empty if there is none -/
def shengXiaoOf (zhi : PyStr) : Except PyErr PyStr :=
  match ZHI.findIdx? (· == zhi) with
  | some i => pyIndex SHENGXIAO i
  | none => .ok []

/-- `lunar_python/Lunar.py` 515-516 -/
def getDayChong (l : Lunar) := pyIndex CHONG l.dayZhiIndex
/-- `lunar_python/Lunar.py` 524-525 -/
def getDayChongGan (l : Lunar) := pyIndex CHONG_GAN l.dayGanIndex
/-- `lunar_python/Lunar.py` 533-534 -/
def getDayChongGanTie (l : Lunar) := pyIndex CHONG_GAN_TIE l.dayGanIndex
/-- `lunar_python/Lunar.py` 542-547 -/
def getDayChongShengXiao (l : Lunar) : Except PyErr PyStr := do shengXiaoOf (← l.getDayChong)
/-- `lunar_python/Lunar.py` 559-560 -/
def getDayChongDesc (l : Lunar) : Except PyErr PyStr := do
  return ['('] ++ (← l.getDayChongGan) ++ (← l.getDayChong) ++ [')'] ++ (← l.getDayChongShengXiao)
/-- `lunar_python/Lunar.py` 568-569 -/
def getDaySha (l : Lunar) : Except PyErr PyStr := do pyDict SHA (← l.getDayZhi)
/-- `lunar_python/Lunar.py` 518-519 -/
def getTimeChong (l : Lunar) := pyIndex CHONG l.timeZhiIndex
/-- `lunar_python/Lunar.py` 527-528 -/
def getTimeChongGan (l : Lunar) := pyIndex CHONG_GAN l.timeGanIndex
/-- `lunar_python/Lunar.py` 536-537 -/
def getTimeChongGanTie (l : Lunar) := pyIndex CHONG_GAN_TIE l.timeGanIndex
/-- `lunar_python/Lunar.py` 549-554 -/
def getTimeChongShengXiao (l : Lunar) : Except PyErr PyStr := do shengXiaoOf (← l.getTimeChong)
/-- `lunar_python/Lunar.py` 562-563 -/
def getTimeChongDesc (l : Lunar) : Except PyErr PyStr := do
  return ['('] ++ (← l.getTimeChongGan) ++ (← l.getTimeChong) ++ [')'] ++ (← l.getTimeChongShengXiao)
/-- `lunar_python/Lunar.py` 571-572 -/
def getTimeSha (l : Lunar) : Except PyErr PyStr := do pyDict SHA (← l.getTimeZhi)
/-- `lunar_python/Lunar.py` 574-575 -/
def getYearNaYin (l : Lunar) : Except PyErr PyStr := do pyDict NAYIN (← l.getYearInGanZhi)
/-- `lunar_python/Lunar.py` 577-578 -/
def getMonthNaYin (l : Lunar) : Except PyErr PyStr := do pyDict NAYIN (← l.getMonthInGanZhi)
/-- `lunar_python/Lunar.py` 580-581 -/
def getDayNaYin (l : Lunar) : Except PyErr PyStr := do pyDict NAYIN (← l.getDayInGanZhi)
/-- `lunar_python/Lunar.py` 583-584 -/
def getTimeNaYin (l : Lunar) : Except PyErr PyStr := do pyDict NAYIN (← l.getTimeInGanZhi)
/-- `lunar_python/Lunar.py` 586-587 -/
def getSeason (l : Lunar) := pyIndex SEASON |l.month|
/-- `lunar_python/Lunar.py` 627-628 -/
def getWeekInChinese (l : Lunar) := pyIndex SolarUtil.WEEK l.weekIndex
/-- `lunar_python/Lunar.py` 633-634 -/
def getXiuLuck (l : Lunar) : Except PyErr PyStr := do pyDict XIU_LUCK (← l.getXiu)
/-- `lunar_python/Lunar.py` 636-637 -/
def getXiuSong (l : Lunar) : Except PyErr PyStr := do pyDict XIU_SONG (← l.getXiu)
/-- `lunar_python/Lunar.py` 639-640 -/
def getZheng (l : Lunar) : Except PyErr PyStr := do pyDict ZHENG (← l.getXiu)
/-- `lunar_python/Lunar.py` 642-643 -/
def getAnimal (l : Lunar) : Except PyErr PyStr := do pyDict ANIMAL (← l.getXiu)
/-- `lunar_python/Lunar.py` 645-646 -/
def getGong (l : Lunar) : Except PyErr PyStr := do pyDict GONG (← l.getXiu)
/-- `lunar_python/Lunar.py` 648-649 -/
def getShou (l : Lunar) : Except PyErr PyStr := do pyDict SHOU (← l.getGong)

/-- `"%d-%d" % (a, b)` (`lunar_python/Lunar.py` 653, 662; `lunar_python/Foto.py` 59, 72, 106; `lunar_python/Tao.py`
55, 75; `lunar_python/Solar.py` 175, 194) -/
def md (a b : ℤ) : PyStr := pyStrInt a ++ '-' :: pyStrInt b

/-- `lunar_python/Lunar.py` 651-658 -/
def getFestivals (A : Astro) (l : Lunar) : Except PyErr (List PyStr) := do
  let fs := (pyDictGet FESTIVAL (md l.month l.day)).toList
  if |l.month| = 12 ∧ l.day ≥ 29 then
    if l.year ≠ (← l.next A 1).year then return fs ++ [['除', '夕']] else return fs
  else return fs

/-- the blocks `lunar_python/Lunar.py` 672-677, 679-684: the fifth 戊 day counted from a term -/
def sheDay (A : Astro) (jq : Solar) : Except PyErr Solar := do
  let offset := 4 - (← fromSolar A jq).dayGanIndex
  let offset := if offset < 0 then offset + 10 else offset
  jq.next (offset + 40)

/-- `lunar_python/Lunar.py` 660-685 -/
def getOtherFestivals (A : Astro) (l : Lunar) : Except PyErr (List PyStr) := do
  let arr := (pyDictGet OTHER_FESTIVAL (md l.month l.day)).getD []
  let solar_ymd := l.solar.toYmd
  let qing ← (← term l.jieQi ['清', '明']).next (-1)
  let arr := if solar_ymd = qing.toYmd then arr ++ [['寒', '食', '节']] else arr
  let chun ← sheDay A (← term l.jieQi ['立', '春'])
  let arr := if solar_ymd = chun.toYmd then arr ++ [['春', '社']] else arr
  let qiu ← sheDay A (← term l.jieQi ['立', '秋'])
  return if solar_ymd = qiu.toYmd then arr ++ [['秋', '社']] else arr

/-- `lunar_python/Lunar.py` 686-693: `getEightChar` (cached, `sect` 2 unless changed) and `getBaZi` -/
def getBaZi (l : Lunar) : Except PyErr (List PyStr) := do
  let e := EightChar.fromLunar l
  return [← e.get .year, ← e.get .month, ← e.get .day, ← e.get .time]
/-- `lunar_python/Lunar.py` 695-697 -/
def getBaZiWuXing (l : Lunar) : Except PyErr (List PyStr) := do
  let e := EightChar.fromLunar l
  return [← e.getWuXing .year, ← e.getWuXing .month, ← e.getWuXing .day, ← e.getWuXing .time]
/-- `lunar_python/Lunar.py` 699-701 -/
def getBaZiNaYin (l : Lunar) : Except PyErr (List (Option PyStr)) := do
  let e := EightChar.fromLunar l
  return [← e.getNaYin .year, ← e.getNaYin .month, ← e.getNaYin .day, ← e.getNaYin .time]
/-- `lunar_python/Lunar.py` 703-705 -/
def getBaZiShiShenGan (l : Lunar) : Except PyErr (List (Option PyStr)) := do
  let e := EightChar.fromLunar l
  return [← e.getShiShenGan .year, ← e.getShiShenGan .month, ← e.getShiShenGan .day, ← e.getShiShenGan .time]
/-- `lunar_python/Lunar.py` 707-709 -/
def getBaZiShiShenZhi (l : Lunar) : Except PyErr (List (Option PyStr)) := do
  let e := EightChar.fromLunar l
  return [← pyIndex (← e.getShiShenZhi .year) 0, ← pyIndex (← e.getShiShenZhi .month) 0,
    ← pyIndex (← e.getShiShenZhi .day) 0, ← pyIndex (← e.getShiShenZhi .time) 0]
/-- `lunar_python/Lunar.py` 711-721: `getBaZiShiShenYearZhi`, `getBaZiShiShenMonthZhi`, `getBaZiShiShenDayZhi`,
`getBaZiShiShenTimeZhi`, for `p` the year, month, day, hour -/
def getBaZiShiShenOfZhi (l : Lunar) (p : Pos) : Except PyErr (List (Option PyStr)) := (EightChar.fromLunar l).getShiShenZhi p

/-- `lunar_python/Lunar.py` 723-727 -/
def getZhiXing (l : Lunar) : Except PyErr PyStr :=
  let offset := l.dayZhiIndex - l.monthZhiIndex
  let offset := if offset < 0 then offset + 12 else offset
  pyIndex ZHI_XING (offset + 1)
/-- `lunar_python/Lunar.py` 729-730 -/
def getDayTianShen (l : Lunar) : Except PyErr PyStr := do
  pyIndex TIAN_SHEN ((l.dayZhiIndex + (← pyDict ZHI_TIAN_SHEN_OFFSET (← l.getMonthZhi))) % 12 + 1)
/-- `lunar_python/Lunar.py` 732-733 -/
def getTimeTianShen (l : Lunar) : Except PyErr PyStr := do
  pyIndex TIAN_SHEN ((l.timeZhiIndex + (← pyDict ZHI_TIAN_SHEN_OFFSET (← l.getDayZhiExact))) % 12 + 1)
/-- `lunar_python/Lunar.py` 735-736 -/
def getDayTianShenType (l : Lunar) : Except PyErr PyStr := do pyDict TIAN_SHEN_TYPE (← l.getDayTianShen)
/-- `lunar_python/Lunar.py` 738-739 -/
def getTimeTianShenType (l : Lunar) : Except PyErr PyStr := do pyDict TIAN_SHEN_TYPE (← l.getTimeTianShen)
/-- `lunar_python/Lunar.py` 741-742 -/
def getDayTianShenLuck (l : Lunar) : Except PyErr PyStr := do pyDict TIAN_SHEN_TYPE_LUCK (← l.getDayTianShenType)
/-- `lunar_python/Lunar.py` 744-745 -/
def getTimeTianShenLuck (l : Lunar) : Except PyErr PyStr := do pyDict TIAN_SHEN_TYPE_LUCK (← l.getTimeTianShenType)
/-- `lunar_python/Lunar.py` 747-748 -/
def getDayPositionTai (l : Lunar) : Except PyErr PyStr := do
  pyIndex POSITION_TAI_DAY (getJiaZiIndex (← l.getDayInGanZhi))
/-- `lunar_python/Lunar.py` 750-754 -/
def getMonthPositionTai (l : Lunar) : Except PyErr PyStr :=
  if l.month < 0 then .ok [] else pyIndex POSITION_TAI_MONTH (l.month - 1)
/-- `lunar_python/Lunar.py` 806-811 -/
def getYueXiang (l : Lunar) := pyIndex YUE_XIANG l.day
/-- `lunar_python/Lunar.py` 1342-1347 -/
def getLiuYao (l : Lunar) := pyIndex LIU_YAO ((|l.month| + l.day - 2) % 6)
/-- `lunar_python/Lunar.py` 1373-1385 -/
def getDayLu (l : Lunar) : Except PyErr PyStr := do
  let gan ← pyDict LU (← l.getDayGan)
  let zhi := pyDictGet LU (← l.getDayZhi)
  let lu := gan ++ ['命', '互', '禄']
  return match zhi with
    | some z => lu ++ [' '] ++ z ++ ['命', '进', '禄']
    | none => lu

/-- `lunar_python/Lunar.py` 1164-1169 -/
def getYearXun (l : Lunar) : Except PyErr PyStr := do LunarUtil.getXun (← l.getYearInGanZhi)
/-- `lunar_python/Lunar.py` 1171-1176 -/
def getYearXunByLiChun (l : Lunar) : Except PyErr PyStr := do LunarUtil.getXun (← l.getYearInGanZhiByLiChun)
/-- `lunar_python/Lunar.py` 1178-1183 -/
def getYearXunExact (l : Lunar) : Except PyErr PyStr := do LunarUtil.getXun (← l.getYearInGanZhiExact)
/-- `lunar_python/Lunar.py` 1185-1190 -/
def getYearXunKong (l : Lunar) : Except PyErr PyStr := do LunarUtil.getXunKong (← l.getYearInGanZhi)
/-- `lunar_python/Lunar.py` 1192-1197 -/
def getYearXunKongByLiChun (l : Lunar) : Except PyErr PyStr := do LunarUtil.getXunKong (← l.getYearInGanZhiByLiChun)
/-- `lunar_python/Lunar.py` 1199-1204 -/
def getYearXunKongExact (l : Lunar) : Except PyErr PyStr := do LunarUtil.getXunKong (← l.getYearInGanZhiExact)
/-- `lunar_python/Lunar.py` 1206-1211 -/
def getMonthXun (l : Lunar) : Except PyErr PyStr := do LunarUtil.getXun (← l.getMonthInGanZhi)
/-- `lunar_python/Lunar.py` 1213-1218 -/
def getMonthXunExact (l : Lunar) : Except PyErr PyStr := do LunarUtil.getXun (← l.getMonthInGanZhiExact)
/-- `lunar_python/Lunar.py` 1220-1225 -/
def getMonthXunKong (l : Lunar) : Except PyErr PyStr := do LunarUtil.getXunKong (← l.getMonthInGanZhi)
/-- `lunar_python/Lunar.py` 1227-1232 -/
def getMonthXunKongExact (l : Lunar) : Except PyErr PyStr := do LunarUtil.getXunKong (← l.getMonthInGanZhiExact)
/-- `lunar_python/Lunar.py` 1234-1239 -/
def getDayXun (l : Lunar) : Except PyErr PyStr := do LunarUtil.getXun (← l.getDayInGanZhi)
/-- `lunar_python/Lunar.py` 1241-1246 -/
def getDayXunExact (l : Lunar) : Except PyErr PyStr := do LunarUtil.getXun (← l.getDayInGanZhiExact)
/-- `lunar_python/Lunar.py` 1248-1253 -/
def getDayXunExact2 (l : Lunar) : Except PyErr PyStr := do LunarUtil.getXun (← l.getDayInGanZhiExact2)
/-- `lunar_python/Lunar.py` 1255-1260 -/
def getDayXunKong (l : Lunar) : Except PyErr PyStr := do LunarUtil.getXunKong (← l.getDayInGanZhi)
/-- `lunar_python/Lunar.py` 1262-1267 -/
def getDayXunKongExact (l : Lunar) : Except PyErr PyStr := do LunarUtil.getXunKong (← l.getDayInGanZhiExact)
/-- `lunar_python/Lunar.py` 1269-1274 -/
def getDayXunKongExact2 (l : Lunar) : Except PyErr PyStr := do LunarUtil.getXunKong (← l.getDayInGanZhiExact2)
/-- `lunar_python/Lunar.py` 1276-1281 -/
def getTimeXun (l : Lunar) : Except PyErr PyStr := do LunarUtil.getXun (← l.getTimeInGanZhi)
/-- `lunar_python/Lunar.py` 1283-1288 -/
def getTimeXunKong (l : Lunar) : Except PyErr PyStr := do LunarUtil.getXunKong (← l.getTimeInGanZhi)

/-- `lunar_python/Lunar.py` 1137-1162 -/
def toFullString (A : Astro) (l : Lunar) : Except PyErr PyStr := do
  let s ← l.toString
  let s := s ++ [' '] ++ (← l.getYearInGanZhi) ++ ['('] ++ (← l.getYearShengXiao) ++ [')', '年']
  let s := s ++ [' '] ++ (← l.getMonthInGanZhi) ++ ['('] ++ (← l.getMonthShengXiao) ++ [')', '月']
  let s := s ++ [' '] ++ (← l.getDayInGanZhi) ++ ['('] ++ (← l.getDayShengXiao) ++ [')', '日']
  let s := s ++ [' '] ++ (← l.getTimeZhi) ++ ['('] ++ (← l.getTimeShengXiao) ++ [')', '时']
  let s := s ++ [' ', '纳', '音', '['] ++ (← l.getYearNaYin) ++ [' '] ++ (← l.getMonthNaYin) ++ [' '] ++ (← l.getDayNaYin) ++ [' '] ++ (← l.getTimeNaYin) ++ [']']
  let s := s ++ [' ', '星', '期'] ++ (← l.getWeekInChinese)
  let s := s ++ ((← l.getFestivals A).map (fun f => [' ', '('] ++ f ++ [')'])).flatten
  let s := s ++ ((← l.getOtherFestivals A).map (fun f => [' ', '('] ++ f ++ [')'])).flatten
  let jq ← l.getJieQi
  let s := if jq.length > 0 then s ++ [' ', '['] ++ jq ++ [']'] else s
  let s := s ++ [' '] ++ (← l.getGong) ++ ['方'] ++ (← l.getShou)
  let s := s ++ [' ', '星', '宿', '['] ++ (← l.getXiu) ++ (← l.getZheng) ++ (← l.getAnimal) ++ [']', '('] ++ (← l.getXiuLuck) ++ [')']
  let s := s ++ [' ', '彭', '祖', '百', '忌', '['] ++ (← l.getPengZuGan) ++ [' '] ++ (← l.getPengZuZhi) ++ [']']
  let s := s ++ [' ', '喜', '神', '方', '位', '['] ++ (← l.getDayPositionXi) ++ [']', '('] ++ (← l.getDayPositionXiDesc) ++ [')']
  let s := s ++ [' ', '阳', '贵', '神', '方', '位', '['] ++ (← l.getDayPositionYangGui) ++ [']', '('] ++ (← l.getDayPositionYangGuiDesc) ++ [')']
  let s := s ++ [' ', '阴', '贵', '神', '方', '位', '['] ++ (← l.getDayPositionYinGui) ++ [']', '('] ++ (← l.getDayPositionYinGuiDesc) ++ [')']
  let s := s ++ [' ', '福', '神', '方', '位', '['] ++ (← l.getDayPositionFu) ++ [']', '('] ++ (← l.getDayPositionFuDesc) ++ [')']
  let s := s ++ [' ', '财', '神', '方', '位', '['] ++ (← l.getDayPositionCai) ++ [']', '('] ++ (← l.getDayPositionCaiDesc) ++ [')']
  let s := s ++ [' ', '冲', '['] ++ (← l.getDayChongDesc) ++ [']']
  let s := s ++ [' ', '煞', '['] ++ (← l.getDaySha) ++ [']']
  return s

end Lunar
