import Verif.Model.Py

/-! # `lunar_python/util/SolarUtil.py` (calendar arithmetic) -/

namespace SolarUtil

/-- `lunar_python/util/SolarUtil.py` 196-204 `isLeapYear` -/
def isLeapYear (year : ℤ) : Bool :=
  if year < 1600 then year % 4 == 0
  else (year % 4 == 0 && year % 100 != 0) || year % 400 == 0

/-- `lunar_python/util/SolarUtil.py` 206-213 `getDaysOfYear` -/
def getDaysOfYear (year : ℤ) : ℤ :=
  if year = 1582 then 355
  else if isLeapYear year then 366 else 365

/-- `lunar_python/util/SolarUtil.py` `DAYS_OF_MONTH[month - 1]`, for `1 ≤ month ≤ 12`.
Simplified: other months (negative index / IndexError in Python) give 31 here; every theorem
assumes `1 ≤ month ≤ 12`, which `Solar.__init__` enforces. -/
def daysOfMonthTable (month : ℤ) : ℤ :=
  if month = 1 then 31 else if month = 2 then 28 else if month = 3 then 31
  else if month = 4 then 30 else if month = 5 then 31 else if month = 6 then 30
  else if month = 7 then 31 else if month = 8 then 31 else if month = 9 then 30
  else if month = 10 then 31 else if month = 11 then 30 else 31

/-- `lunar_python/util/SolarUtil.py` 215-229 `getDaysOfMonth` -/
def getDaysOfMonth (year month : ℤ) : ℤ :=
  if year = 1582 ∧ month = 10 then 21
  else if month = 2 ∧ isLeapYear year then daysOfMonthTable month + 1
  else daysOfMonthTable month

/-- `lunar_python/util/SolarUtil.py` 231-243 `getDaysInYear` -/
def getDaysInYear (year month day : ℤ) : Except PyErr ℤ :=
  let days := (pyRange 1 month).foldl (fun acc i => acc + getDaysOfMonth year i) 0
  if year = 1582 ∧ month = 10 then
    if day ≥ 15 then .ok (days + (day - 10))
    else if day > 4 then .error .exception
    else .ok (days + day)
  else .ok (days + day)

/-- the loop `for i in range(lo, hi): days += getDaysOfYear(i)`,
`lunar_python/util/SolarUtil.py` 263-264 and 269-270 -/
def addYears (days lo hi : ℤ) : ℤ := (pyRange lo hi).foldl (fun acc i => acc + getDaysOfYear i) days

/-- `lunar_python/util/SolarUtil.py` 257-273 `getDaysBetween` -/
def getDaysBetween (ay am ad by_ bm bd : ℤ) : Except PyErr ℤ := do
  if ay = by_ then
    let b ← getDaysInYear by_ bm bd
    let a ← getDaysInYear ay am ad
    return b - a
  else if ay > by_ then
    let b ← getDaysInYear by_ bm bd
    let days := addYears (getDaysOfYear by_ - b) (by_ + 1) ay
    let a ← getDaysInYear ay am ad
    return -(days + a)
  else
    let a ← getDaysInYear ay am ad
    let days := addYears (getDaysOfYear ay - a) (ay + 1) by_
    let b ← getDaysInYear by_ bm bd
    return days + b

end SolarUtil
