import Verif.Model.Solar

/-!
# `lunar_python/util/HolidayUtil.py`, `lunar_python/Holiday.py` and working-day stepping

The class attributes `__NAMES_IN_USE` and `__DATA_IN_USE` are the state `HState`.
-/

/-- Python `s[a:b]` with negative indices (`lunar_python/util/HolidayUtil.py` 37-40, 96). -/
def pySlice (s : PyStr) (a b : ℤ) : PyStr :=
  let n : ℤ := s.length
  let lo := if a < 0 then max 0 (a + n) else a
  let hi := if b < 0 then max 0 (b + n) else b
  (s.drop lo.toNat).take (hi - lo).toNat

/-- Python `s.find(key)`; `none` for -1 (`lunar_python/util/HolidayUtil.py` 46). -/
def pyFind (key : PyStr) : PyStr → Option ℕ
  | [] => if key = [] then some 0 else none
  | c :: t => if key.isPrefixOf (c :: t) then some 0 else (pyFind key t).map (· + 1)

/-- Python `s.rfind(key)` as an integer, -1 when absent
(`lunar_python/util/HolidayUtil.py` 59, 69, 94). -/
def pyRFind (key : PyStr) : PyStr → ℤ
  | [] => if key = [] then 0 else -1
  | c :: t => if pyRFind key t ≥ 0 then pyRFind key t + 1
    else if key.isPrefixOf (c :: t) then 0 else -1

/-- scanning part of `str.replace`: `skip` characters belong to a match already replaced -/
def pyReplaceGo (old new : PyStr) : ℕ → PyStr → PyStr
  | _, [] => []
  | 0, c :: t => if old.isPrefixOf (c :: t) then new ++ pyReplaceGo old new (old.length - 1) t
    else c :: pyReplaceGo old new 0 t
  | k + 1, _ :: t => pyReplaceGo old new k t

/-- Python `s.replace(old, new)` for non-empty `old` (`lunar_python/util/HolidayUtil.py` 105,
175-176): all non-overlapping occurrences, from the left, at any position. -/
def pyReplace (old new s : PyStr) : PyStr := pyReplaceGo old new 0 s

/-- Python `ord(s)`: defined on one-character strings only
(`lunar_python/util/HolidayUtil.py` 28). -/
def pyOrd (s : PyStr) : Except PyErr ℤ :=
  match s with
  | [c] => .ok c.toNat
  | _ => .error .typeError

/-- Python `str(n)` for an int (`lunar_python/util/HolidayUtil.py` 23, 103). -/
def pyStrInt (n : ℤ) : PyStr := fmtD 0 n

/-- `lunar_python/Holiday.py` 7-18: the fields of a `Holiday`. -/
structure Holiday where
  day : PyStr
  name : PyStr
  work : Bool
  target : PyStr
  deriving DecidableEq, Repr

namespace Holiday

/-- `lunar_python/Holiday.py` 20-22 `__ymd` -/
def ymd (s : PyStr) : PyStr :=
  if '-' ∈ s then s else s.take 4 ++ '-' :: ((s.drop 4).take 2 ++ '-' :: s.drop 6)

/-- `lunar_python/Holiday.py` 7-18 `__init__` -/
def new (day name : PyStr) (work : Bool) (target : PyStr) : Holiday := ⟨ymd day, name, work, ymd target⟩

end Holiday

/-- `lunar_python/util/HolidayUtil.py` 15-16: `__NAMES_IN_USE`, `__DATA_IN_USE`. -/
structure HState where
  names : List PyStr
  data : PyStr
  deriving DecidableEq, Repr

namespace HolidayUtil

/-- `lunar_python/util/HolidayUtil.py` 21-23 `__padding` -/
def padding (n : ℤ) : PyStr := (if n < 10 then ['0'] else []) ++ pyStrInt n

/-- `lunar_python/util/HolidayUtil.py` 25-32 `__buildHolidayForward` -/
def buildForward (names : List PyStr) (s : PyStr) : Except PyErr Holiday := do
  let o ← pyOrd (pySlice s 8 9)
  let name ← pyIndex names (o - 48)
  let w ← pyOrd (pySlice s 9 10)
  return Holiday.new (pySlice s 0 8) name (w = 48) (pySlice s 10 18)

/-- `lunar_python/util/HolidayUtil.py` 34-42 `__buildHolidayBackward` -/
def buildBackward (names : List PyStr) (s : PyStr) : Except PyErr Holiday := do
  let size : ℤ := s.length
  let o ← pyOrd (pySlice s (size - 10) (size - 9))
  let name ← pyIndex names (o - 48)
  let w ← pyOrd (pySlice s (size - 9) (size - 8))
  return Holiday.new (pySlice s (size - 18) (size - 10)) name (w = 48) (pySlice s (size - 8) size)

/-- the loop of `lunar_python/util/HolidayUtil.py` 53-54; every round drops 18 characters, so
`s.length` rounds are enough. -/
def skipForward (key : PyStr) : ℕ → PyStr → PyStr
  | 0, s => s
  | f + 1, s => if !key.isPrefixOf s ∧ s.length ≥ 18 then skipForward key f (s.drop 18) else s

/-- `lunar_python/util/HolidayUtil.py` 44-55 `__findForward` -/
def findForward (st : HState) (key : PyStr) : Option PyStr :=
  match pyFind key st.data with
  | none => none
  | some start =>
    let right := st.data.drop start
    let n := right.length % 18
    let right := if n > 0 then right.drop n else right
    some (skipForward key right.length right)

/-- the loop of `lunar_python/util/HolidayUtil.py` 69-71 -/
def skipBackward (key : PyStr) : ℕ → PyStr → PyStr
  | 0, s => s
  | f + 1, s =>
    if (s.length : ℤ) - key.length ≠ pyRFind key s ∧ s.length ≥ 18
    then skipBackward key f (s.take (s.length - 18)) else s

/-- `lunar_python/util/HolidayUtil.py` 57-72 `__findBackward` -/
def findBackward (st : HState) (key : PyStr) : Option PyStr :=
  let start := pyRFind key st.data
  if start < 0 then none
  else
    let left := st.data.take (start.toNat + key.length)
    let n := left.length % 18
    let left := if n > 0 then left.take (left.length - n) else left
    some (skipBackward key left.length left)

/-- the loop of `lunar_python/util/HolidayUtil.py` 80-82; a round on the empty string raises, so
`s.length + 1` rounds are enough. -/
def collectForward (names : List PyStr) (key : PyStr) : ℕ → PyStr → Except PyErr (List Holiday)
  | 0, _ => .ok []
  | f + 1, s =>
    if key.isPrefixOf s then do
      let h ← buildForward names s
      let t ← collectForward names key f (s.drop 18)
      return h :: t
    else .ok []

/-- `lunar_python/util/HolidayUtil.py` 74-83 `__findHolidaysForward` -/
def findHolidaysForward (st : HState) (key : PyStr) : Except PyErr (List Holiday) :=
  match findForward st key with
  | none => .ok []
  | some s => collectForward st.names key (s.length + 1) s

/-- the loop of `lunar_python/util/HolidayUtil.py` 94-97 (in the order of collection) -/
def collectBackward (names : List PyStr) (key : PyStr) : ℕ → PyStr → Except PyErr (List Holiday)
  | 0, _ => .ok []
  | f + 1, s =>
    if (s.length : ℤ) - key.length = pyRFind key s then do
      let h ← buildBackward names s
      let t ← collectBackward names key f (pySlice s 0 (s.length - 18))
      return h :: t
    else .ok []

/-- `lunar_python/util/HolidayUtil.py` 85-99 `__findHolidaysBackward` -/
def findHolidaysBackward (st : HState) (key : PyStr) : Except PyErr (List Holiday) := do
  match findBackward st key with
  | none => return []
  | some s =>
    let arr ← collectBackward st.names key (s.length + 1) s
    return arr.reverse

/-- `lunar_python/util/HolidayUtil.py` 101-108, 129-138 `getHoliday`; `y` is `str(year)`. -/
def getHolidayStr (st : HState) (y : PyStr) (month day : ℤ) : Except PyErr (Option Holiday) := do
  let arr ←
    if month = 0 ∨ day = 0 then findHolidaysForward st (pyReplace ['-'] [] y)
    else findHolidaysForward st (y ++ padding month ++ padding day)
  return arr.head?

/-- `getHoliday` with an integer year -/
def getHoliday (st : HState) (year month day : ℤ) : Except PyErr (Option Holiday) :=
  getHolidayStr st (pyStrInt year) month day

/-- `lunar_python/util/HolidayUtil.py` 110-117, 140-142 `getHolidays`; `y` is `str(year)`. -/
def getHolidaysStr (st : HState) (y : PyStr) (month : ℤ) : Except PyErr (List Holiday) :=
  if month = 0 then findHolidaysForward st (pyReplace ['-'] [] y)
  else findHolidaysForward st (y ++ padding month)

/-- `getHolidays` with an integer year -/
def getHolidays (st : HState) (year month : ℤ) : Except PyErr (List Holiday) :=
  getHolidaysStr st (pyStrInt year) month

/-- `lunar_python/util/HolidayUtil.py` 119-126, 144-146 `getHolidaysByTarget`; `y` is
`str(year)`. -/
def getHolidaysByTargetStr (st : HState) (y : PyStr) (month day : ℤ) : Except PyErr (List Holiday) :=
  if month = 0 ∨ day = 0 then findHolidaysBackward st (pyReplace ['-'] [] y)
  else findHolidaysBackward st (y ++ padding month ++ padding day)

/-- `getHolidaysByTarget` with an integer year -/
def getHolidaysByTarget (st : HState) (year month day : ℤ) : Except PyErr (List Holiday) :=
  getHolidaysByTargetStr st (pyStrInt year) month day

/-- `lunar_python/util/HolidayUtil.py` 168-172: index of the first equal name, -1 if none. -/
def nameIndex (names : List PyStr) (n : PyStr) : ℤ :=
  match names.findIdx? (· == n) with
  | some i => i
  | none => -1

/-- one round of the loop of `lunar_python/util/HolidayUtil.py` 160-177 on `(__DATA_IN_USE, append)` -/
def fixStep (names : List PyStr) (data append segment : PyStr) : Except PyErr (PyStr × PyStr) := do
  let day := segment.take 8
  let remove := (['~'] : PyStr) = pySlice segment 8 9
  let holiday ← getHolidayStr ⟨names, data⟩ day 0 0
  match holiday with
  | none => return (data, if remove then append else append ++ segment)
  | some h =>
    let i := nameIndex names h.name
    if i > -1 then
      let old := day ++ [Char.ofNat (i + 48).toNat] ++ (if h.work then ['0'] else ['1'])
        ++ pyReplace ['-'] [] h.target
      return (pyReplace old (if remove then [] else segment) data, append)
    else return (data, append)

/-- the loop of `lunar_python/util/HolidayUtil.py` 160-177; returns the table and `append`, and
the exception if one stopped it (the table keeps the changes made so far). -/
def fixLoop (names : List PyStr) : ℕ → PyStr → PyStr → PyStr → PyStr × Except PyErr PyStr
  | 0, tbl, append, _ => (tbl, .ok append)
  | f + 1, tbl, append, data =>
    if data.length ≥ 18 then
      match fixStep names tbl append (data.take 18) with
      | .error e => (tbl, .error e)
      | .ok (tbl', append') => fixLoop names f tbl' append' (data.drop 18)
    else (tbl, .ok append)

/-- `lunar_python/util/HolidayUtil.py` 148-179 `fix`: new state, and the exception raised if any. -/
def fix (st : HState) (names : Option (List PyStr)) (data : Option PyStr) : HState × Except PyErr Unit :=
  let names := names.getD st.names
  match data with
  | none => (⟨names, st.data⟩, .ok ())
  | some d =>
    match fixLoop names d.length st.data [] d with
    | (tbl, .error e) => (⟨names, tbl⟩, .error e)
    | (tbl, .ok append) => (⟨names, tbl ++ append⟩, .ok ())

end HolidayUtil

namespace Solar

/-- one round of the loop of `lunar_python/Solar.py` 303-314: the next day and whether it counts -/
def workStep (st : HState) (s : Solar) (add : ℤ) : Except PyErr (Solar × Bool) := do
  let t ← s.next add
  let h ← HolidayUtil.getHoliday st t.year t.month t.day
  match h with
  | none =>
    let week := t.getWeek
    return (t, !(week = 0 ∨ week = 6))
  | some h => return (t, h.work)

/-- the loop of `lunar_python/Solar.py` 303-314; `none` when `fuel` rounds were not enough. -/
def workLoop (st : HState) (add : ℤ) : ℕ → ℕ → Solar → Option (Except PyErr Solar)
  | _, 0, s => some (.ok s)
  | 0, _ + 1, _ => none
  | f + 1, rest + 1, s =>
    match workStep st s add with
    | .error e => some (.error e)
    | .ok (t, work) => workLoop st add f (if work then rest else rest + 1) t

/-- `lunar_python/Solar.py` 289-315 `next(days, only_work_day=True)` -/
def nextWork (st : HState) (s : Solar) (days : ℤ) (fuel : ℕ) : Option (Except PyErr Solar) :=
  match fromYmdHms s.year s.month s.day s.hour s.minute s.second with
  | .error e => some (.error e)
  | .ok solar =>
    if days ≠ 0 then workLoop st (if days < 0 then -1 else 1) fuel days.natAbs solar
    else some (.ok solar)

end Solar
