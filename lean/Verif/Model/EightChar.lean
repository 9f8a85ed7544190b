import Verif.Model.JieQi

/-! # `EightChar.py`: the four pillars of a birth chart

The getters exist once per pillar (`getYear...`, `getMonth...`, `getDay...`, `getTime...`) with the same
text; they are modelled once with a parameter `Pos`. -/

/-- `lunar_python/EightChar.py` 27-29: the object (`sect` is 2 unless changed by `setSect`) -/
structure EightChar where
  sect : ℤ
  lunar : Lunar
  deriving DecidableEq, Repr

/-- which of the four pillars (`lunar_python/EightChar.py` 47-318) -/
inductive Pos
  | year | month | day | time
  deriving DecidableEq, Repr

namespace EightChar
open LunarUtil

/-- `lunar_python/EightChar.py` 31-33 `fromLunar` -/
def fromLunar (l : Lunar) : EightChar := ⟨2, l⟩

/-- `lunar_python/EightChar.py` 44-45 `setSect` -/
def setSect (e : EightChar) (sect : ℤ) : EightChar := { e with sect := sect }

/-- `lunar_python/EightChar.py` 110-111 `getDayGanIndex` -/
def getDayGanIndex (e : EightChar) : ℤ := if 2 = e.sect then e.lunar.dayGanIndexExact2 else e.lunar.dayGanIndexExact

/-- `lunar_python/EightChar.py` 113-114 `getDayZhiIndex` -/
def getDayZhiIndex (e : EightChar) : ℤ := if 2 = e.sect then e.lunar.dayZhiIndexExact2 else e.lunar.dayZhiIndexExact

/-- the stem index the getters of a pillar use: `lunar_python/Lunar.py` 237-238, 261-262, 279-283, 303-304
as called in `lunar_python/EightChar.py` 59, 143, 206, 269 -/
def ganIndex (e : EightChar) : Pos → ℤ
  | .year => e.lunar.yearGanIndexExact
  | .month => e.lunar.monthGanIndexExact
  | .day => e.getDayGanIndex
  | .time => e.lunar.timeGanIndex

/-- the branch index the getters of a pillar use: `lunar_python/Lunar.py` 246-247, 267-268, 288-292, 306-307
as called in `lunar_python/EightChar.py` 66, 150, 213, 276, 129, 192, 255, 318 -/
def zhiIndex (e : EightChar) : Pos → ℤ
  | .year => e.lunar.yearZhiIndexExact
  | .month => e.lunar.monthZhiIndexExact
  | .day => e.getDayZhiIndex
  | .time => e.lunar.timeZhiIndex

/-- `lunar_python/EightChar.py` 47-52, 131-136, 194-199, 257-262 `getYear`, `getMonth`, `getDay`, `getTime` -/
def get (e : EightChar) : Pos → Except PyErr PyStr
  | .year => e.lunar.getYearInGanZhiExact
  | .month => e.lunar.getMonthInGanZhiExact
  | .day => if 2 = e.sect then e.lunar.getDayInGanZhiExact2 else e.lunar.getDayInGanZhiExact
  | .time => e.lunar.getTimeInGanZhi

/-- `lunar_python/EightChar.py` 35-36 `toString` -/
def toString (e : EightChar) : Except PyErr PyStr := do
  return (← e.get .year) ++ ' ' :: (← e.get .month) ++ ' ' :: (← e.get .day) ++ ' ' :: (← e.get .time)

/-- `lunar_python/EightChar.py` 54-59, 138-143, 201-206, 264-269 `get...Gan` -/
def getGan (e : EightChar) (p : Pos) : Except PyErr PyStr := pyIndex GAN (e.ganIndex p + 1)

/-- `lunar_python/EightChar.py` 61-66, 145-150, 208-213, 271-276 `get...Zhi` -/
def getZhi (e : EightChar) (p : Pos) : Except PyErr PyStr := pyIndex ZHI (e.zhiIndex p + 1)

/-- `lunar_python/EightChar.py` 68-73, 152-157, 215-220, 278-283 `get...HideGan` -/
def getHideGan (e : EightChar) (p : Pos) : Except PyErr (Option (List PyStr)) := do
  return pyDictGet ZHI_HIDE_GAN (← e.getZhi p)

/-- `lunar_python/EightChar.py` 75-80, 159-164, 222-227, 285-290 `get...WuXing` (`None + ...` raises) -/
def getWuXing (e : EightChar) (p : Pos) : Except PyErr PyStr := do
  match pyDictGet WU_XING_GAN (← e.getGan p), pyDictGet WU_XING_ZHI (← e.getZhi p) with
  | some a, some b => return a ++ b
  | _, _ => .error .typeError

/-- `lunar_python/EightChar.py` 82-87, 166-171, 229-234, 292-297 `get...NaYin` -/
def getNaYin (e : EightChar) (p : Pos) : Except PyErr (Option PyStr) := do
  return pyDictGet NAYIN (← e.get p)

/-- `lunar_python/EightChar.py` 89-94, 173-178, 236-241, 299-304 `get...ShiShenGan` -/
def getShiShenGan (e : EightChar) : Pos → Except PyErr (Option PyStr)
  | .day => .ok (some ['日', '主'])
  | p => do return pyDictGet SHI_SHEN ((← e.getGan .day) ++ (← e.getGan p))

/-- `lunar_python/EightChar.py` 96-101 `__getShiShenZhi` as called in 103-108, 180-185, 243-248, 306-311
`get...ShiShenZhi` (iterating over `None` raises) -/
def getShiShenZhi (e : EightChar) (p : Pos) : Except PyErr (List (Option PyStr)) := do
  match pyDictGet ZHI_HIDE_GAN (← e.getZhi p) with
  | none => .error .typeError
  | some hide_gan => hide_gan.mapM (fun gan => do return pyDictGet SHI_SHEN ((← e.getGan .day) ++ gan))

/-- `lunar_python/EightChar.py` 116-122 `__getDiShi` as called in 124-129, 187-192, 250-255, 313-318
`get...DiShi` -/
def getDiShi (e : EightChar) (p : Pos) : Except PyErr PyStr := do
  match pyDictGet CHANG_SHENG_OFFSET (← e.getGan .day) with
  | none => .error .typeError
  | some o =>
    let index := o + (if e.getDayGanIndex % 2 = 0 then e.zhiIndex p else -e.zhiIndex p)
    let index := if index ≥ 12 then index - 12 else index
    let index := if index < 0 then index + 12 else index
    pyIndex CHANG_SHENG index

/-- `lunar_python/EightChar.py` 320-331 `getTaiYuan` -/
def getTaiYuan (e : EightChar) : Except PyErr PyStr := do
  let gan_index := e.lunar.monthGanIndexExact + 1
  let gan_index := if gan_index ≥ 10 then gan_index - 10 else gan_index
  let zhi_index := e.lunar.monthZhiIndexExact + 3
  let zhi_index := if zhi_index ≥ 12 then zhi_index - 12 else zhi_index
  return (← pyIndex GAN (gan_index + 1)) ++ (← pyIndex ZHI (zhi_index + 1))

/-- `lunar_python/EightChar.py` 340-347 `getTaiXi` -/
def getTaiXi (e : EightChar) : Except PyErr PyStr := do
  return (← pyIndex HE_GAN_5 e.getDayGanIndex) ++ (← pyIndex HE_ZHI_6 e.getDayZhiIndex)

/-- the search loops of `lunar_python/EightChar.py` 365-374, 401-405: position in `MONTH_ZHI`, 0 if absent -/
def monthZhiPos (zhi : PyStr) : ℤ := indexOr0 MONTH_ZHI zhi

/-- `while x > m: x -= m` (`lunar_python/EightChar.py` 381-382, 412-413, 415-416) -/
def whileSub (m : ℕ) (x : ℤ) : ℤ := if h : x > m ∧ 0 < m then whileSub m (x - m) else x
termination_by x.toNat
decreasing_by omega

/-- `lunar_python/EightChar.py` 356-383 `getMingGong` -/
def getMingGong (e : EightChar) : Except PyErr PyStr := do
  let month_zhi ← e.getZhi .month
  let time_zhi ← e.getZhi .time
  let month_zhi_index := monthZhiPos month_zhi
  let time_zhi_index := monthZhiPos time_zhi
  let offset := month_zhi_index + time_zhi_index
  let offset := if offset ≥ 14 then 26 - offset else 14 - offset
  let gan_index := (e.lunar.yearGanIndexExact + 1) * 2 + offset
  let gan_index := whileSub 10 gan_index
  return (← pyIndex GAN gan_index) ++ (← pyIndex MONTH_ZHI offset)

/-- `lunar_python/EightChar.py` 392-417 `getShenGong` -/
def getShenGong (e : EightChar) : Except PyErr PyStr := do
  let month_zhi ← e.getZhi .month
  let time_zhi ← e.getZhi .time
  let month_zhi_index := monthZhiPos month_zhi
  let time_zhi_index := indexOr0 ZHI time_zhi
  let offset := month_zhi_index + time_zhi_index
  let offset := whileSub 12 offset
  let gan_index := (e.lunar.yearGanIndexExact + 1) * 2 + (offset % 12)
  let gan_index := whileSub 10 gan_index
  return (← pyIndex GAN gan_index) ++ (← pyIndex MONTH_ZHI offset)

/-- `lunar_python/EightChar.py` 333-338, 349-354, 385-390, 419-424 `getTaiYuanNaYin`, `getTaiXiNaYin`,
`getMingGongNaYin`, `getShenGongNaYin`, of the respective pillar -/
def naYinOf (p : Except PyErr PyStr) : Except PyErr (Option PyStr) := do return pyDictGet NAYIN (← p)

/-- `lunar_python/EightChar.py` 439-444, 453-458, 467-472, 481-486 `get...Xun` with
`lunar_python/Lunar.py` 1178-1183, 1213-1218, 1241-1253, 1276-1281 -/
def getXun (e : EightChar) (p : Pos) : Except PyErr PyStr := do LunarUtil.getXun (← e.get p)

/-- `lunar_python/EightChar.py` 446-451, 460-465, 474-479, 488-493 `get...XunKong` with
`lunar_python/Lunar.py` 1199-1204, 1227-1232, 1262-1274, 1283-1288 -/
def getXunKong (e : EightChar) (p : Pos) : Except PyErr PyStr := do LunarUtil.getXunKong (← e.get p)

end EightChar
