import Verif.Model.Tables
import Verif.Model.Holiday

/-! # `util/LunarUtil.py`: pure lookups -/

/-- Python `d[k]` on a dict literal (as an association list) -/
def pyDict {β : Type} (d : List (PyStr × β)) (k : PyStr) : Except PyErr β :=
  match d.find? (fun p => p.1 == k) with
  | some p => .ok p.2
  | none => .error .keyError

/-- Python `d.get(k)` -/
def pyDictGet {β : Type} (d : List (PyStr × β)) (k : PyStr) : Option β :=
  (d.find? (fun p => p.1 == k)).map Prod.snd

namespace LunarUtil

/-- the loop of `lunar_python/util/LunarUtil.py` 674-679 -/
def timeZhiLoop (hm : PyStr) : List ℤ → ℤ → ℤ
  | [], _ => 0
  | i :: is, x =>
    if strLe ((if i < 10 then ['0'] else []) ++ pyStrInt i ++ [':', '0', '0']) hm ∧
       strLe hm ((if i + 1 < 10 then ['0'] else []) ++ pyStrInt (i + 1) ++ [':', '5', '9']) then x
    else timeZhiLoop hm is (x + 1)

/-- `lunar_python/util/LunarUtil.py` 664-680 `getTimeZhiIndex` (of a string) -/
def getTimeZhiIndex (hm : PyStr) : ℤ :=
  let hm := if hm.length > 5 then hm.take 5 else hm
  timeZhiLoop hm [1, 3, 5, 7, 9, 11, 13, 15, 17, 19, 21] 1

/-- `lunar_python/util/LunarUtil.py` 682-689 `convertTime` -/
def convertTime (hm : PyStr) : Except PyErr PyStr := pyIndex ZHI (getTimeZhiIndex hm + 1)

/-- `lunar_python/util/LunarUtil.py` 703-713 `getJiaZiIndex` -/
def getJiaZiIndex (gan_zhi : PyStr) : ℤ :=
  match JIA_ZI.findIdx? (· == gan_zhi) with
  | some i => i
  | none => -1

/-- `lunar_python/util/LunarUtil.py` 875-880 `find` -/
def find (name : PyStr) (names : List PyStr) (offset : ℤ) : ℤ :=
  match names.findIdx? (· == name) with
  | some i => i + offset
  | none => -1

/-- the search loops of `lunar_python/util/LunarUtil.py` 891-900: first index, 0 if absent -/
def indexOr0 (names : List PyStr) (s : PyStr) : ℤ :=
  match names.findIdx? (· == s) with
  | some i => i
  | none => 0

/-- `lunar_python/util/LunarUtil.py` 882-904 `getXunIndex` -/
def getXunIndex (gan_zhi : PyStr) : ℤ :=
  let gan_index := indexOr0 GAN (gan_zhi.take 1)
  let zhi_index := indexOr0 ZHI (gan_zhi.drop 1)
  let diff := gan_index - zhi_index
  let diff := if diff < 0 then diff + 12 else diff
  diff.tdiv 2

/-- `lunar_python/util/LunarUtil.py` 906-913 `getXun` -/
def getXun (gan_zhi : PyStr) : Except PyErr PyStr := pyIndex XUN (getXunIndex gan_zhi)

/-- `lunar_python/util/LunarUtil.py` 915-922 `getXunKong` -/
def getXunKong (gan_zhi : PyStr) : Except PyErr PyStr := pyIndex XUN_KONG (getXunIndex gan_zhi)

end LunarUtil
