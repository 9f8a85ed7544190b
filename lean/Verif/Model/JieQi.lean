import Verif.Model.LunarYear

/-! # `JieQi.py`, `ShuJiu.py`, `Fu.py` and the searches in `Lunar.py` that use the table of terms -/

open LunarUtil

/-- `lunar_python/JieQi.py` 9-64: name, `isJie`, `isQi`, moment -/
structure JieQi where
  name : PyStr
  jie : Bool
  qi : Bool
  solar : Solar
  deriving DecidableEq, Repr

namespace JieQi

/-- `lunar_python/JieQi.py` 9-14, 23-36: the constructor with `setName` (a fresh object has both flags
false before) -/
def make (name : PyStr) (solar : Solar) : JieQi :=
  match Lunar.JIE_QI.findIdx? (fun x => name == x) with
  | some i => if i % 2 = 0 then ⟨name, false, true, solar⟩ else ⟨name, true, false, solar⟩
  | none => ⟨name, false, false, solar⟩

end JieQi

namespace Lunar

/-- `lunar_python/Lunar.py` 589-606 `__convertJieQi` -/
def convertJieQi (name : PyStr) : PyStr :=
  if ['D', 'O', 'N', 'G', '_', 'Z', 'H', 'I'] = name then ['冬', '至']
  else if ['D', 'A', '_', 'H', 'A', 'N'] = name then ['大', '寒']
  else if ['X', 'I', 'A', 'O', '_', 'H', 'A', 'N'] = name then ['小', '寒']
  else if ['L', 'I', '_', 'C', 'H', 'U', 'N'] = name then ['立', '春']
  else if ['D', 'A', '_', 'X', 'U', 'E'] = name then ['大', '雪']
  else if ['Y', 'U', '_', 'S', 'H', 'U', 'I'] = name then ['雨', '水']
  else if ['J', 'I', 'N', 'G', '_', 'Z', 'H', 'E'] = name then ['惊', '蛰']
  else name

/-- `toYmd` or `toYmdHms` (`lunar_python/Lunar.py` 1044, 1050, 1058, 1069) -/
def fmtOf (whole_day : Bool) (s : Solar) : PyStr := if whole_day then s.toYmd else s.toYmdHms

/-- the body of the loop of `lunar_python/Lunar.py` 1049-1072 after the filter: `near` is the pair of
`name` and `near` -/
def nearStep (forward whole_day : Bool) (today jq : PyStr) (solar : Solar) (near : Option (PyStr × Solar)) :
    Option (PyStr × Solar) :=
  let day := fmtOf whole_day solar
  if forward then
    if strLe day today then near
    else match near with
      | none => some (jq, solar)
      | some (n, s) => if strLt day (fmtOf whole_day s) then some (jq, solar) else some (n, s)
  else
    if strLt today day then near
    else match near with
      | none => some (jq, solar)
      | some (n, s) => if strLt (fmtOf whole_day s) day then some (jq, solar) else some (n, s)

/-- the loop of `lunar_python/Lunar.py` 1045-1072 -/
def nearLoop (forward whole_day : Bool) (filters : List PyStr) (today : PyStr) (table : List Solar) :
    List PyStr → Option (PyStr × Solar) → Except PyErr (Option (PyStr × Solar))
  | [], near => .ok near
  | key :: keys, near =>
    let jq := convertJieQi key
    if filters ≠ [] ∧ jq ∉ filters then nearLoop forward whole_day filters today table keys near
    else do
      let solar ← term table key
      nearLoop forward whole_day filters today table keys (nearStep forward whole_day today jq solar near)

/-- `lunar_python/Lunar.py` 1029-1075 `__getNearJieQi` (`conditions = None` is the empty list) -/
def getNearJieQi (l : Lunar) (forward : Bool) (conditions : List PyStr) (whole_day : Bool) :
    Except PyErr (Option JieQi) := do
  let near ← nearLoop forward whole_day conditions (fmtOf whole_day l.solar) l.jieQi JIE_QI_IN_USE none
  return near.map (fun p => JieQi.make p.1 p.2)

/-- the `conditions` of `lunar_python/Lunar.py` 975-977, 986-988 -/
def jieNames : List PyStr := (List.range 15).map (fun i => JIE_QI_IN_USE.getD (i * 2) [])
/-- the `conditions` of `lunar_python/Lunar.py` 997-999, 1008-1010 -/
def qiNames : List PyStr := (List.range 15).map (fun i => JIE_QI_IN_USE.getD (i * 2 + 1) [])

/-- `lunar_python/Lunar.py` 969-978 -/
def getNextJie (l : Lunar) (whole_day : Bool := false) := getNearJieQi l true jieNames whole_day
/-- `lunar_python/Lunar.py` 980-989 -/
def getPrevJie (l : Lunar) (whole_day : Bool := false) := getNearJieQi l false jieNames whole_day
/-- `lunar_python/Lunar.py` 991-1000 -/
def getNextQi (l : Lunar) (whole_day : Bool := false) := getNearJieQi l true qiNames whole_day
/-- `lunar_python/Lunar.py` 1002-1011 -/
def getPrevQi (l : Lunar) (whole_day : Bool := false) := getNearJieQi l false qiNames whole_day
/-- `lunar_python/Lunar.py` 1013-1019 -/
def getNextJieQi (l : Lunar) (whole_day : Bool := false) := getNearJieQi l true [] whole_day
/-- `lunar_python/Lunar.py` 1021-1027 -/
def getPrevJieQi (l : Lunar) (whole_day : Bool := false) := getNearJieQi l false [] whole_day

/-- the test of `lunar_python/Lunar.py` 612, 620, 1084, 1095, 1108, 1120 -/
def sameDay (d s : Solar) : Bool := d.year = s.year ∧ d.month = s.month ∧ d.day = s.day

/-- the loops of `lunar_python/Lunar.py` 609-614, 617-622, 1082-1086, 1093-1097, 1104-1109, 1116-1121: the
first of the given keys whose term is on the day -/
def findTerm (l : Lunar) : List PyStr → Except PyErr (Option (PyStr × Solar))
  | [] => .ok none
  | key :: keys => do
    let d ← term l.jieQi key
    if sameDay d l.solar then return some (key, d) else findTerm l keys

/-- `range(0, len, 2)` and `range(1, len, 2)` of the keys (`lunar_python/Lunar.py` 609, 617, 1104, 1116) -/
def jieKeys : List PyStr := everySecond JIE_QI_IN_USE
/-- see `jieKeys` -/
def qiKeys : List PyStr := everySecond (JIE_QI_IN_USE.drop 1)

/-- the name or the empty string (`lunar_python/Lunar.py` 613-614) -/
def nameOr (r : Option (PyStr × Solar)) : PyStr := match r with
  | some p => convertJieQi p.1
  | none => []

/-- `lunar_python/Lunar.py` 608-614 -/
def getJie (l : Lunar) : Except PyErr PyStr := do return nameOr (← findTerm l jieKeys)
/-- `lunar_python/Lunar.py` 616-622 -/
def getQi (l : Lunar) : Except PyErr PyStr := do return nameOr (← findTerm l qiKeys)
/-- `lunar_python/Lunar.py` 1077-1086 -/
def getJieQi (l : Lunar) : Except PyErr PyStr := do return nameOr (← findTerm l JIE_QI_IN_USE)
/-- `lunar_python/Lunar.py` 1088-1097; the object carries the moment of the `Lunar`, not of the term -/
def getCurrentJieQi (l : Lunar) : Except PyErr (Option JieQi) := do
  return (← findTerm l JIE_QI_IN_USE).map (fun p => JieQi.make (convertJieQi p.1) l.solar)
/-- `lunar_python/Lunar.py` 1099-1109 -/
def getCurrentJie (l : Lunar) : Except PyErr (Option JieQi) := do
  return (← findTerm l jieKeys).map (fun p => JieQi.make (convertJieQi p.1) p.2)
/-- `lunar_python/Lunar.py` 1111-1121 -/
def getCurrentQi (l : Lunar) : Except PyErr (Option JieQi) := do
  return (← findTerm l qiKeys).map (fun p => JieQi.make (convertJieQi p.1) p.2)

/-- `lunar_python/Lunar.py` 1290-1305 `getShuJiu`: name and index of the `ShuJiu`
(`lunar_python/ShuJiu.py` 9-11).  `int(days / 9)` is taken as exact division. -/
def getShuJiu (l : Lunar) : Except PyErr (Option (PyStr × ℤ)) := do
  let current ← Solar.fromYmd l.solar.year l.solar.month l.solar.day
  let start ← term l.jieQi ['D', 'O', 'N', 'G', '_', 'Z', 'H', 'I']
  let start ← Solar.fromYmd start.year start.month start.day
  let start ←
    if current.isBefore start then do
      let start ← term l.jieQi ['冬', '至']
      Solar.fromYmd start.year start.month start.day
    else pure start
  let end_ ← Solar.fromYmd start.year start.month start.day
  let end_ ← end_.next 81
  if current.isBefore start || !current.isBefore end_ then return none
  else
    let days ← current.subtract start
    let name ← pyIndex NUMBER (days.tdiv 9 + 1)
    return some (name ++ ['九'], days % 9 + 1)

/-- `lunar_python/Lunar.py` 1307-1340 `getFu`: name and index of the `Fu` (`lunar_python/Fu.py` 10-12) -/
def getFu (A : Astro) (l : Lunar) : Except PyErr (Option (PyStr × ℤ)) := do
  let current ← Solar.fromYmd l.solar.year l.solar.month l.solar.day
  let xia_zhi ← term l.jieQi ['夏', '至']
  let li_qiu ← term l.jieQi ['立', '秋']
  let start ← Solar.fromYmd xia_zhi.year xia_zhi.month xia_zhi.day
  let xl ← fromSolar A xia_zhi
  let add := 6 - xl.dayGanIndex
  let add := if add < 0 then add + 10 else add
  let add := add + 20
  let start ← start.next add
  if current.isBefore start then return none
  else
    let days ← current.subtract start
    if days < 10 then return some (['初', '伏'], days + 1)
    else
      let start ← start.next 10
      let days ← current.subtract start
      if days < 10 then return some (['中', '伏'], days + 1)
      else
        let start ← start.next 10
        let days ← current.subtract start
        let li_qiu_solar ← Solar.fromYmd li_qiu.year li_qiu.month li_qiu.day
        if li_qiu_solar.isAfter start then
          if days < 10 then return some (['中', '伏'], days + 11)
          else
            let start ← start.next 10
            let days ← current.subtract start
            if days < 10 then return some (['末', '伏'], days + 1) else return none
        else if days < 10 then return some (['末', '伏'], days + 1) else return none

/-- `lunar_python/Lunar.py` 1349-1363 `getWuHou` (`int(x / 5)` taken as exact) -/
def getWuHou (l : Lunar) : Except PyErr PyStr := do
  match ← getPrevJieQi l true with
  | none => .error .attributeError
  | some jie_qi =>
    let offset : ℤ := match JIE_QI.findIdx? (fun x => jie_qi.name == x) with
      | some i => i
      | none => 0
    let days ← l.solar.subtract jie_qi.solar
    let index := days.tdiv 5
    let index := if index > 2 then 2 else index
    pyIndex WU_HOU ((offset * 3 + index) % 72)

/-- `lunar_python/Lunar.py` 1365-1371 `getHou` -/
def getHou (l : Lunar) : Except PyErr PyStr := do
  match ← getPrevJieQi l true with
  | none => .error .attributeError
  | some jie_qi =>
    let size : ℤ := HOU.length - 1
    let days ← l.solar.subtract jie_qi.solar
    let offset := days.tdiv 5
    let offset := if offset > size then size else offset
    let hou ← pyIndex HOU offset
    return jie_qi.name ++ [' '] ++ hou

end Lunar
