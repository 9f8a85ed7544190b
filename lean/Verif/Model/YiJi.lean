import Verif.Model.LunarDay
import Verif.Model.YiJiTables

/-! # Daily and hourly lists of the almanac (`util/LunarUtil.py` 690-873)

The packed texts are searched exactly as in the code: `find` of a key with `=`, cutting before the next key. -/

/-- the hexadecimal digits of a field of `YiJiTables.lean`, without the digit in front -/
def hexField (n : ℕ) : PyStr := ((Nat.toDigits 16 n).map Char.toUpper).drop 1

/-- Python `s.find(key)` as an integer, -1 when absent (`lunar_python/util/LunarUtil.py` 727, 732, 734, ...) -/
def pyFindI (key s : PyStr) : ℤ :=
  match pyFind key s with
  | some i => i
  | none => -1

/-- value of a hexadecimal digit -/
def hexValue (c : Char) : Option ℕ :=
  if '0' ≤ c ∧ c ≤ '9' then some (c.toNat - 48)
  else if 'A' ≤ c ∧ c ≤ 'F' then some (c.toNat - 55)
  else if 'a' ≤ c ∧ c ≤ 'f' then some (c.toNat - 87)
  else none

/-- Python `int(s, 16)` for strings of hexadecimal digits (signs, blanks, `_` and `0x`, which Python also takes, do not
occur in the tables; they are errors here) (`lunar_python/util/LunarUtil.py` 742, 776, 801, ...) -/
def pyIntHex (s : PyStr) : Except PyErr ℤ :=
  match s with
  | [] => .error .valueError
  | _ => match s.foldl (fun a c => a.bind fun n => (hexValue c).map fun d => 16 * n + d) (some 0) with
    | some n => .ok (n : ℕ)
    | none => .error .valueError

/-- Python `hex(n).replace("0x", "").upper()` (`lunar_python/util/LunarUtil.py` 698, 793, 816) -/
def pyHex (n : ℤ) : PyStr := (if n < 0 then ['-'] else []) ++ (Nat.toDigits 16 n.natAbs).map Char.toUpper

namespace LunarUtil

/-- `lunar_python/util/LunarUtil.py` 41 `__DAY_YI_JI`: the text -/
def DAY_YI_JI : PyStr :=
  (DAY_YI_JI_RECORDS.map fun (k, m, y, j) => hexField k ++ '=' :: (hexField m ++ ':' :: (hexField y ++ ',' :: hexField j))).flatten
/-- `lunar_python/util/LunarUtil.py` 42 `__TIME_YI_JI`: the text -/
def TIME_YI_JI : PyStr :=
  (TIME_YI_JI_RECORDS.map fun (k, y, j) => hexField k ++ '=' :: (hexField y ++ ',' :: hexField j)).flatten
/-- `lunar_python/util/LunarUtil.py` 46 `__DAY_SHEN_SHA`: the text -/
def DAY_SHEN_SHA : PyStr :=
  (DAY_SHEN_SHA_RECORDS.map fun (k, y, j) => hexField k ++ '=' :: (hexField y ++ ',' :: hexField j)).flatten

/-- `lunar_python/util/LunarUtil.py` 691-701 `__hex` -/
def hex (n : ℤ) : PyStr :=
  let s := pyHex n
  if s.length < 2 then '0' :: s else s

/-- `s[i:i + 2] for i in range(0, len(s), 2)` (`lunar_python/util/LunarUtil.py` 735-736, 741-742, ...) -/
def pairs : PyStr → List PyStr
  | [] => []
  | [a] => [[a]]
  | a :: b :: t => [a, b] :: pairs t

/-- the loops `lunar_python/util/LunarUtil.py` 741-742, 775-776, 800-801, 823-824, 846-847, 869-870: the names of a packed list -/
def decode (names : List PyStr) (ys : PyStr) : Except PyErr (List PyStr) :=
  (pairs ys).mapM fun p => do pyIndex names (← pyIntHex p)

/-- `lunar_python/util/LunarUtil.py` 745-746, 779-780, 802-803, 825-826, 848-849, 871-872 -/
def orNone (arr : List PyStr) : List PyStr := if arr.length < 1 then [['无']] else arr

/-- `lunar_python/util/LunarUtil.py` 730-732, 764-766 and, with other lengths of the key, 796-798, 819-821, 842-844, 865-867:
the text up to the next key -/
def upToKey (right : PyStr) (keyLen : ℤ) : PyStr :=
  if (pyFind ['='] right).isSome then pySlice right 0 (pyFindI ['='] right - keyLen) else right

/-- the `while` loop of `lunar_python/util/LunarUtil.py` 727-744 and 761-778: `none` if no record matches, else the record
without its key -/
def dayRecord (day month : PyStr) (right : PyStr) : Option PyStr :=
  match h : pyFind (day ++ ['=']) right with
  | none => none
  | some index =>
    let rest := right.drop (index + 3)
    let left := upToKey rest 2
    let months := pySlice left 0 (pyFindI [':'] left)
    if (pairs months).any (· == month) then some left
    else dayRecord day month rest
termination_by right.length
decreasing_by
  have : right ≠ [] := by
    rintro rfl
    unfold pyFind at h
    simp at h
  have := List.length_pos_iff.2 this
  simp only [List.length_drop]
  omega

/-- `lunar_python/util/LunarUtil.py` 715-747 `getDayYi` -/
def getDayYi (month_gan_zhi day_gan_zhi : PyStr) : Except PyErr (List PyStr) := do
  let day := hex (getJiaZiIndex day_gan_zhi)
  let month := hex (getJiaZiIndex month_gan_zhi)
  match dayRecord day month DAY_YI_JI with
  | none => return orNone []
  | some left => return orNone (← decode YI_JI (pySlice left (pyFindI [':'] left + 1) (pyFindI [','] left)))

/-- `lunar_python/util/LunarUtil.py` 749-781 `getDayJi` -/
def getDayJi (month_gan_zhi day_gan_zhi : PyStr) : Except PyErr (List PyStr) := do
  let day := hex (getJiaZiIndex day_gan_zhi)
  let month := hex (getJiaZiIndex month_gan_zhi)
  match dayRecord day month DAY_YI_JI with
  | none => return orNone []
  | some left => return orNone (← decode YI_JI (pySlice left (pyFindI [','] left + 1) left.length))

/-- `lunar_python/util/LunarUtil.py` 783-804 `getDayJiShen`.  The code skips 4 characters and cuts 3, the length of the key
for the months 1 to 15 and the sixty pairs. -/
def getDayJiShen (lunar_month : ℤ) (day_gan_zhi : PyStr) : Except PyErr (List PyStr) := do
  let day := hex (getJiaZiIndex day_gan_zhi)
  let month := pyHex |lunar_month|
  match pyFind (month ++ day ++ ['=']) DAY_SHEN_SHA with
  | none => return orNone []
  | some index =>
    let left := upToKey (DAY_SHEN_SHA.drop (index + 4)) 3
    return orNone (← decode SHEN_SHA (pySlice left 0 (pyFindI [','] left)))

/-- `lunar_python/util/LunarUtil.py` 806-827 `getDayXiongSha` -/
def getDayXiongSha (lunar_month : ℤ) (day_gan_zhi : PyStr) : Except PyErr (List PyStr) := do
  let day := hex (getJiaZiIndex day_gan_zhi)
  let month := pyHex |lunar_month|
  match pyFind (month ++ day ++ ['=']) DAY_SHEN_SHA with
  | none => return orNone []
  | some index =>
    let left := upToKey (DAY_SHEN_SHA.drop (index + 4)) 3
    return orNone (← decode SHEN_SHA (pySlice left (pyFindI [','] left + 1) left.length))

/-- `lunar_python/util/LunarUtil.py` 829-850 `getTimeYi` -/
def getTimeYi (day_gan_zhi time_gan_zhi : PyStr) : Except PyErr (List PyStr) := do
  let day := hex (getJiaZiIndex day_gan_zhi)
  let time := hex (getJiaZiIndex time_gan_zhi)
  match pyFind (day ++ time ++ ['=']) TIME_YI_JI with
  | none => return orNone []
  | some index =>
    let left := upToKey (TIME_YI_JI.drop (index + 5)) 4
    return orNone (← decode YI_JI (pySlice left 0 (pyFindI [','] left)))

/-- `lunar_python/util/LunarUtil.py` 852-873 `getTimeJi` -/
def getTimeJi (day_gan_zhi time_gan_zhi : PyStr) : Except PyErr (List PyStr) := do
  let day := hex (getJiaZiIndex day_gan_zhi)
  let time := hex (getJiaZiIndex time_gan_zhi)
  match pyFind (day ++ time ++ ['=']) TIME_YI_JI with
  | none => return orNone []
  | some index =>
    let left := upToKey (TIME_YI_JI.drop (index + 5)) 4
    return orNone (← decode YI_JI (pySlice left (pyFindI [','] left + 1) left.length))

end LunarUtil

namespace Lunar

/-- `lunar_python/Lunar.py` 756-765 -/
def getDayYi (l : Lunar) (sect : ℤ := 1) : Except PyErr (List PyStr) := do
  LunarUtil.getDayYi (← if 2 = sect then l.getMonthInGanZhiExact else l.getMonthInGanZhi) (← l.getDayInGanZhi)
/-- `lunar_python/Lunar.py` 767-776 -/
def getDayJi (l : Lunar) (sect : ℤ := 1) : Except PyErr (List PyStr) := do
  LunarUtil.getDayJi (← if 2 = sect then l.getMonthInGanZhiExact else l.getMonthInGanZhi) (← l.getDayInGanZhi)
/-- `lunar_python/Lunar.py` 778-783 -/
def getTimeYi (l : Lunar) : Except PyErr (List PyStr) := do LunarUtil.getTimeYi (← l.getDayInGanZhiExact) (← l.getTimeInGanZhi)
/-- `lunar_python/Lunar.py` 785-790 -/
def getTimeJi (l : Lunar) : Except PyErr (List PyStr) := do LunarUtil.getTimeJi (← l.getDayInGanZhiExact) (← l.getTimeInGanZhi)
/-- `lunar_python/Lunar.py` 792-797 -/
def getDayJiShen (l : Lunar) : Except PyErr (List PyStr) := do LunarUtil.getDayJiShen l.month (← l.getDayInGanZhi)
/-- `lunar_python/Lunar.py` 799-804 -/
def getDayXiongSha (l : Lunar) : Except PyErr (List PyStr) := do LunarUtil.getDayXiongSha l.month (← l.getDayInGanZhi)

end Lunar
