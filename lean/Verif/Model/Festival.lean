import Verif.Model.Py

/-! # `FotoFestival.py`, `TaoFestival.py` -/

/-- `lunar_python/FotoFestival.py` 9-13 (`None` is replaced by the empty string there) -/
structure FotoFestival where
  name : PyStr
  result : PyStr
  everyMonth : Bool
  remark : PyStr
  deriving DecidableEq, Repr

/-- `lunar_python/FotoFestival.py` 33-39 `toFullString` -/
def FotoFestival.toFullString (f : FotoFestival) : PyStr :=
  let s := f.name
  let s := if f.result.length > 0 then s ++ [' '] ++ f.result else s
  if f.remark.length > 0 then s ++ [' '] ++ f.remark else s

/-- `lunar_python/TaoFestival.py` 9-11 -/
structure TaoFestival where
  name : PyStr
  remark : PyStr
  deriving DecidableEq, Repr

/-- `lunar_python/TaoFestival.py` 25-29 `toFullString` -/
def TaoFestival.toFullString (f : TaoFestival) : PyStr :=
  if f.remark.length > 0 then f.name ++ ['['] ++ f.remark ++ [']'] else f.name
