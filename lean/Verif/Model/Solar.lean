import Verif.Model.SolarUtil
import Verif.Model.F64

/-! # `lunar_python/Solar.py` and `lunar_python/SolarMonth.py` `next` -/

/-- `lunar_python/Solar.py` 30-35: the fields of a `Solar` object. -/
structure Solar where
  year : ℤ
  month : ℤ
  day : ℤ
  hour : ℤ
  minute : ℤ
  second : ℤ
  deriving DecidableEq, Repr

/-- `lunar_python/SolarMonth.py` 12-14: the fields of a `SolarMonth`. -/
structure SolarMonth where
  year : ℤ
  month : ℤ
  deriving DecidableEq, Repr

namespace SolarMonth

/-- `lunar_python/SolarMonth.py` 67-85 `next` -/
def next (s : SolarMonth) (months : ℤ) : SolarMonth :=
  let n : ℤ := if months < 0 then -1 else 1
  let m : ℤ := |months|
  let y := s.year + (m.tdiv 12) * n
  let m := s.month + m % 12 * n
  if m > 12 then ⟨y + 1, m - 12⟩
  else if m < 1 then ⟨y - 1, m + 12⟩
  else ⟨y, m⟩

end SolarMonth

namespace Solar
open SolarUtil F64

/-- `lunar_python/Solar.py` 16-35 `__init__` (also `fromYmdHms` 82-83).
The test `day < 1 or month > 31` is transcribed as written. -/
def fromYmdHms (year month day hour minute second : ℤ) : Except PyErr Solar :=
  if year = 1582 ∧ month = 10 ∧ 4 < day ∧ day < 15 then .error .exception
  else if month < 1 ∨ month > 12 then .error .exception
  else if day < 1 ∨ month > 31 then .error .exception
  else if hour < 0 ∨ hour > 23 then .error .exception
  else if minute < 0 ∨ minute > 59 then .error .exception
  else if second < 0 ∨ second > 59 then .error .exception
  else .ok ⟨year, month, day, hour, minute, second⟩

/-- `lunar_python/Solar.py` 85-87 `fromYmd` -/
def fromYmd (year month day : ℤ) : Except PyErr Solar := fromYmdHms year month day 0 0 0

/-- `lunar_python/Solar.py` 148-153 `isLeapYear` -/
def isLeapYear (s : Solar) : Bool := SolarUtil.isLeapYear s.year

/-- `lunar_python/Solar.py` 238: `d = day + ((second / 60.0 + minute) / 60 + hour) / 24`,
one rounding per operation. -/
def dayFraction (s : Solar) : ℚ :=
  add s.day (div (add (div (add (div s.second 60) s.minute) 60) s.hour) 24)

/-- the double nearest to `30.6001` (`lunar_python/Solar.py` 249) -/
def c30_6001 : ℚ := rnd (306001 / 10000)

/-- `lunar_python/Solar.py` 231-249 `getJulianDay`, in binary64 arithmetic -/
def getJulianDay (s : Solar) : ℚ :=
  let y := s.year
  let m := s.month
  let d := dayFraction s
  let g : Bool := y * 372 + m * 31 + trunc d ≥ 588829
  let y' := if m ≤ 2 then y - 1 else y
  let m' := if m ≤ 2 then m + 12 else m
  let n : ℤ := if g then 2 - y'.tdiv 100 + (y'.tdiv 100).tdiv 4 else 0
  let base : ℤ := trunc (mul (1461 / 4) (y' + 4716)) + trunc (mul c30_6001 (m' + 1))
  sub (add (add base d) n) (3049 / 2)

/-- `lunar_python/Solar.py` 155-160 `getWeek` -/
def getWeek (s : Solar) : ℤ := (trunc (add s.getJulianDay (1 / 2)) + 7000001) % 7

/-- `lunar_python/Solar.py` 42-79 `fromJulianDay`, in binary64 arithmetic.
The argument is a float. -/
def fromJulianDay (julianDay : ℚ) : Except PyErr Solar :=
  let d : ℤ := trunc (add julianDay (1 / 2))
  let f : ℚ := sub (add julianDay (1 / 2)) d
  let d : ℤ :=
    if d ≥ 2299161 then
      let c : ℤ := trunc (div (sub d (rnd (7468865 / 4))) (146097 / 4))
      d + (1 + c - c.tdiv 4)
    else d
  let d : ℤ := d + 1524
  let year : ℤ := trunc (div (sub d (rnd (1221 / 10))) (1461 / 4))
  let d : ℤ := d - trunc (mul (1461 / 4) year)
  let month : ℤ := trunc (div d (rnd (30601 / 1000)))
  let day : ℤ := d - trunc (mul (rnd (30601 / 1000)) month)
  let ym : ℤ × ℤ := if month > 13 then (year - 4715, month - 13) else (year - 4716, month - 1)
  let f := mul f 24
  let hour := trunc f
  let f := sub f hour
  let f := mul f 60
  let minute := trunc f
  let f := sub f minute
  let f := mul f 60
  let second := roundHalfEven f
  let (minute, second) := if second > 59 then (minute + 1, second - 60) else (minute, second)
  let (hour, minute) := if minute > 59 then (hour + 1, minute - 60) else (hour, minute)
  let (day, hour) := if hour > 23 then (day + 1, hour - 24) else (day, hour)
  fromYmdHms ym.1 ym.2 day hour minute second

theorem daysOfMonthTable_pos (m : ℤ) : 0 < daysOfMonthTable m := by
  unfold daysOfMonthTable
  repeat' split
  all_goals decide

theorem getDaysOfMonth_pos (y m : ℤ) : 0 < getDaysOfMonth y m := by
  have := daysOfMonthTable_pos m
  unfold getDaysOfMonth
  split
  · omega
  · split <;> omega

/-- the forward loop of `nextDay`, `lunar_python/Solar.py` 266-275 -/
def nextDayFwd (y m d : ℤ) : ℤ × ℤ × ℤ :=
  if d > getDaysOfMonth y m then
    if m + 1 > 12 then nextDayFwd (y + 1) 1 (d - getDaysOfMonth y m)
    else nextDayFwd y (m + 1) (d - getDaysOfMonth y m)
  else (y, m, d)
termination_by d.toNat
decreasing_by all_goals (have := getDaysOfMonth_pos y m; omega)

/-- the backward loop of `nextDay`, `lunar_python/Solar.py` 276-283 -/
def nextDayBwd (y m d days : ℤ) : ℤ × ℤ × ℤ :=
  if d + days ≤ 0 then
    if m - 1 < 1 then nextDayBwd (y - 1) 12 (d + getDaysOfMonth (y - 1) 12) days
    else nextDayBwd y (m - 1) (d + getDaysOfMonth y (m - 1)) days
  else (y, m, d + days)
termination_by (1 - (d + days)).toNat
decreasing_by
  · have := getDaysOfMonth_pos (y - 1) 12; omega
  · have := getDaysOfMonth_pos y (m - 1); omega

/-- `lunar_python/Solar.py` 259-287 `nextDay` -/
def nextDay (s : Solar) (days : ℤ) : Except PyErr Solar :=
  let d := if s.year = 1582 ∧ s.month = 10 ∧ s.day > 4 then s.day - 10 else s.day
  let r : ℤ × ℤ × ℤ :=
    if days > 0 then nextDayFwd s.year s.month (d + days)
    else if days < 0 then nextDayBwd s.year s.month d days
    else (s.year, s.month, d)
  let d := if r.1 = 1582 ∧ r.2.1 = 10 ∧ r.2.2 > 4 then r.2.2 + 10 else r.2.2
  fromYmdHms r.1 r.2.1 d s.hour s.minute s.second

/-- `lunar_python/Solar.py` 289-297 `next(days)` with `only_work_day=False`
(the working-day variant is in `Verif.Model.WorkDay`). -/
def next (s : Solar) (days : ℤ) : Except PyErr Solar := nextDay s days

/-- `lunar_python/Solar.py` 336-337 `toYmd` -/
def toYmd (s : Solar) : PyStr := fmtD 4 s.year ++ '-' :: fmtD 2 s.month ++ '-' :: fmtD 2 s.day

/-- `lunar_python/Solar.py` 339-340 `toYmdHms` -/
def toYmdHms (s : Solar) : PyStr :=
  toYmd s ++ ' ' :: fmtD 2 s.hour ++ ':' :: fmtD 2 s.minute ++ ':' :: fmtD 2 s.second

/-- `lunar_python/Solar.py` 363-364 `subtract` -/
def subtract (s o : Solar) : Except PyErr ℤ :=
  getDaysBetween o.year o.month o.day s.year s.month s.day

/-- `lunar_python/Solar.py` 366-375 `subtractMinute` -/
def subtractMinute (s o : Solar) : Except PyErr ℤ := do
  let days ← subtract s o
  let cm := s.hour * 60 + s.minute
  let sm := o.hour * 60 + o.minute
  let m := cm - sm
  if m < 0 then return (m + 1440) + (days - 1) * 1440
  else return m + days * 1440

/-- `lunar_python/Solar.py` 377-398 `isAfter` -/
def isAfter (s o : Solar) : Bool :=
  if s.year > o.year then true
  else if s.year < o.year then false
  else if s.month > o.month then true
  else if s.month < o.month then false
  else if s.day > o.day then true
  else if s.day < o.day then false
  else if s.hour > o.hour then true
  else if s.hour < o.hour then false
  else if s.minute > o.minute then true
  else if s.minute < o.minute then false
  else s.second > o.second

/-- `lunar_python/Solar.py` 400-421 `isBefore` -/
def isBefore (s o : Solar) : Bool :=
  if s.year > o.year then false
  else if s.year < o.year then true
  else if s.month > o.month then false
  else if s.month < o.month then true
  else if s.day > o.day then false
  else if s.day < o.day then true
  else if s.hour > o.hour then false
  else if s.hour < o.hour then true
  else if s.minute > o.minute then false
  else if s.minute < o.minute then true
  else s.second < o.second

/-- `lunar_python/Solar.py` 423-434 `nextYear` -/
def nextYear (s : Solar) (years : ℤ) : Except PyErr Solar :=
  let y := s.year + years
  let d :=
    if y = 1582 ∧ s.month = 10 then
      if 4 < s.day ∧ s.day < 15 then s.day + 10 else s.day
    else if s.month = 2 then
      if s.day > 28 then
        if !SolarUtil.isLeapYear y then 28 else s.day
      else s.day
    else s.day
  fromYmdHms y s.month d s.hour s.minute s.second

/-- `lunar_python/Solar.py` 436-449 `nextMonth` -/
def nextMonth (s : Solar) (months : ℤ) : Except PyErr Solar :=
  let month := SolarMonth.next ⟨s.year, s.month⟩ months
  let y := month.year
  let m := month.month
  let d :=
    if y = 1582 ∧ m = 10 then
      if 4 < s.day ∧ s.day < 15 then s.day + 10 else s.day
    else if s.day > getDaysOfMonth y m then getDaysOfMonth y m
    else s.day
  fromYmdHms y m d s.hour s.minute s.second

/-- `lunar_python/Solar.py` 451-463 `nextHour` -/
def nextHour (s : Solar) (hours : ℤ) : Except PyErr Solar := do
  let h := s.hour + hours
  let n : ℤ := if h < 0 then -1 else 1
  let hour := |h|
  let days := hour.tdiv 24 * n
  let hour := (hour % 24) * n
  let days := if hour < 0 then days - 1 else days
  let hour := if hour < 0 then hour + 24 else hour
  let solar ← next s days
  fromYmdHms solar.year solar.month solar.day hour solar.minute solar.second

/-- `lunar_python/Solar.py` 200-229 `getXingZuo`: index into the 12 names
(`SolarUtil.XING_ZUO`, 0 = Aries (白羊)). -/
def xingZuoIndex (s : Solar) : ℤ :=
  let y := s.month * 100 + s.day
  if 321 ≤ y ∧ y ≤ 419 then 0
  else if 420 ≤ y ∧ y ≤ 520 then 1
  else if 521 ≤ y ∧ y ≤ 621 then 2
  else if 622 ≤ y ∧ y ≤ 722 then 3
  else if 723 ≤ y ∧ y ≤ 822 then 4
  else if 823 ≤ y ∧ y ≤ 922 then 5
  else if 923 ≤ y ∧ y ≤ 1023 then 6
  else if 1024 ≤ y ∧ y ≤ 1122 then 7
  else if 1123 ≤ y ∧ y ≤ 1221 then 8
  else if y ≥ 1222 ∨ y ≤ 119 then 9
  else if y ≤ 218 then 10
  else 11

end Solar
