import Verif.Model.Solar

/-! # `SolarMonth.py`, `SolarSeason.py`, `SolarHalfYear.py`, `SolarYear.py`, `SolarWeek.py` -/

open SolarUtil

namespace SolarUtil

/-- `lunar_python/util/SolarUtil.py` 246-255 `getWeeksOfMonth` (`len(SolarUtil.WEEK)` is 7) -/
def getWeeksOfMonth (year month start : ℤ) : Except PyErr ℤ := do
  let f ← Solar.fromYmd year month 1
  return pyCeilDiv (getDaysOfMonth year month + f.getWeek - start) 7

end SolarUtil

/-! ## seasons, half years, years -/

/-- `lunar_python/SolarSeason.py` 15-17: the fields of a `SolarSeason` -/
structure SolarSeason where
  year : ℤ
  month : ℤ
  deriving DecidableEq, Repr

/-- `lunar_python/SolarHalfYear.py` 15-17: the fields of a `SolarHalfYear` -/
structure SolarHalfYear where
  year : ℤ
  month : ℤ
  deriving DecidableEq, Repr

namespace SolarSeason

/-- `lunar_python/SolarSeason.py` 41-46 `getIndex` -/
def getIndex (s : SolarSeason) : ℤ := pyCeilDiv s.month 3

/-- `lunar_python/SolarSeason.py` 48-57 `getMonths` -/
def getMonths (s : SolarSeason) : List SolarMonth :=
  let index := s.getIndex - 1
  (pyRange 0 3).map (fun i => ⟨s.year, 3 * index + i + 1⟩)

/-- `lunar_python/SolarSeason.py` 59-66 `next` -/
def next (s : SolarSeason) (seasons : ℤ) : SolarSeason :=
  let m := SolarMonth.next ⟨s.year, s.month⟩ (3 * seasons)
  ⟨m.year, m.month⟩

end SolarSeason

namespace SolarHalfYear

/-- `lunar_python/SolarHalfYear.py` 41-46 `getIndex` -/
def getIndex (s : SolarHalfYear) : ℤ := pyCeilDiv s.month 6

/-- `lunar_python/SolarHalfYear.py` 48-57 `getMonths` -/
def getMonths (s : SolarHalfYear) : List SolarMonth :=
  let index := s.getIndex - 1
  (pyRange 0 6).map (fun i => ⟨s.year, 6 * index + i + 1⟩)

/-- `lunar_python/SolarHalfYear.py` 59-66 `next` -/
def next (s : SolarHalfYear) (half_years : ℤ) : SolarHalfYear :=
  let m := SolarMonth.next ⟨s.year, s.month⟩ (6 * half_years)
  ⟨m.year, m.month⟩

end SolarHalfYear

namespace SolarYear

/-- `lunar_python/SolarYear.py` 36-46 `getMonths` (a `SolarYear` is just its year number) -/
def getMonths (year : ℤ) : List SolarMonth :=
  let m : SolarMonth := ⟨year, 1⟩
  m :: (pyRange 1 12).map (fun i => m.next i)

/-- `lunar_python/SolarYear.py` 48-54 `next` -/
def next (year years : ℤ) : ℤ := year + years

end SolarYear

/-! ## weeks -/

/-- `lunar_python/SolarWeek.py` 15-19: the fields of a `SolarWeek` (no validation) -/
structure SolarWeek where
  year : ℤ
  month : ℤ
  day : ℤ
  start : ℤ
  deriving DecidableEq, Repr

namespace SolarWeek

/-- the `SolarWeek.fromYmd(s.getYear(), s.getMonth(), s.getDay(), start)` of
`lunar_python/SolarWeek.py` 132, 137, 145, 150, 154, 158, 162 -/
def ofSolar (s : Solar) (start : ℤ) : SolarWeek := ⟨s.year, s.month, s.day, start⟩

/-- `lunar_python/SolarWeek.py` 55-63 `getIndex` -/
def getIndex (w : SolarWeek) : Except PyErr ℤ := do
  let f ← Solar.fromYmd w.year w.month 1
  let offset := f.getWeek - w.start
  let offset := if offset < 0 then offset + 7 else offset
  return pyCeilDiv (w.day + offset) 7

/-- `lunar_python/SolarWeek.py` 65-73 `getIndexInYear` -/
def getIndexInYear (w : SolarWeek) : Except PyErr ℤ := do
  let f ← Solar.fromYmd w.year 1 1
  let offset := f.getWeek - w.start
  let offset := if offset < 0 then offset + 7 else offset
  let n ← getDaysInYear w.year w.month w.day
  return pyCeilDiv (n + offset) 7

/-- `lunar_python/SolarWeek.py` 75-84 `getFirstDay` -/
def getFirstDay (w : SolarWeek) : Except PyErr Solar := do
  let solar ← Solar.fromYmd w.year w.month w.day
  let prev := solar.getWeek - w.start
  let prev := if prev < 0 then prev + 7 else prev
  solar.next (-prev)

/-- `lunar_python/SolarWeek.py` 96-106 `getDays` -/
def getDays (w : SolarWeek) : Except PyErr (List Solar) := do
  let first ← w.getFirstDay
  let rest ← (pyRange 1 7).mapM (fun i => first.next i)
  return first :: rest

/-- `lunar_python/SolarWeek.py` 86-94 `getFirstDayInMonth` -/
def getFirstDayInMonth (w : SolarWeek) : Except PyErr (Option Solar) := do
  let days ← w.getDays
  return days.find? (fun d => w.month = d.month)

/-- `lunar_python/SolarWeek.py` 108-117 `getDaysInMonth` -/
def getDaysInMonth (w : SolarWeek) : Except PyErr (List Solar) := do
  let days ← w.getDays
  return days.filter (fun d => w.month = d.month)

/-- loop state of `next(weeks, True)`: the variables `solar`, `week`, `month` of
`lunar_python/SolarWeek.py` 127-164 -/
structure SepState where
  solar : Solar
  week : SolarWeek
  month : ℤ

/-- the loop body of `next(weeks, True)`, `lunar_python/SolarWeek.py` 135-163 -/
def sepStep (start : ℤ) (plus : Bool) (st : SepState) : Except PyErr SepState := do
  let solar ← st.solar.next (if plus then 7 else -7)
  let week := ofSolar solar start
  if st.month ≠ week.month then
    let index ← week.getIndex
    if plus then
      if index = 1 then
        let first_day ← week.getFirstDay
        let week' := ofSolar first_day start
        return ⟨solar, week', week'.month⟩
      else
        let solar' ← Solar.fromYmd week.year week.month 1
        return ⟨solar', ofSolar solar' start, week.month⟩
    else
      let k ← getWeeksOfMonth week.year week.month start
      if k = index then
        let f ← week.getFirstDay
        let last_day ← f.next 6
        let week' := ofSolar last_day start
        return ⟨solar, week', week'.month⟩
      else
        let solar' ← Solar.fromYmd week.year week.month (getDaysOfMonth week.year week.month)
        return ⟨solar', ofSolar solar' start, week.month⟩
  else return ⟨solar, week, st.month⟩

/-- `while 0 != n` of `lunar_python/SolarWeek.py` 134, `n` iterations -/
def sepLoop (start : ℤ) (plus : Bool) : ℕ → SepState → Except PyErr SepState
  | 0, st => .ok st
  | n + 1, st => do
    let st' ← sepStep start plus st
    sepLoop start plus n st'

/-- `lunar_python/SolarWeek.py` 119-168 `next` -/
def next (w : SolarWeek) (weeks : ℤ) (separate_month : Bool) : Except PyErr SolarWeek := do
  if weeks = 0 then return w
  let solar ← Solar.fromYmd w.year w.month w.day
  if separate_month then
    let st ← sepLoop w.start (weeks > 0) weeks.natAbs ⟨solar, ofSolar solar w.start, w.month⟩
    return st.week
  else
    let solar ← solar.next (weeks * 7)
    return ofSolar solar w.start

end SolarWeek

namespace SolarMonth

/-- `lunar_python/SolarMonth.py` 39-49 `getDays` -/
def getDays (m : SolarMonth) : Except PyErr (List Solar) := do
  let d ← Solar.fromYmd m.year m.month 1
  let rest ← (pyRange 1 (getDaysOfMonth m.year m.month)).mapM (fun i => d.next i)
  return d :: rest

/-- the `while True` loop of `getWeeks`, `lunar_python/SolarMonth.py` 59-64.  The first argument
bounds the number of iterations; `none` means "not finished yet" (the theorems show that it
always finishes). -/
def weeksLoop (m : SolarMonth) : ℕ → SolarWeek → Option (Except PyErr (List SolarWeek))
  | 0, _ => none
  | fuel + 1, week =>
    match week.next 1 false with
    | .error e => some (.error e)
    | .ok week' =>
      match week'.getFirstDay with
      | .error e => some (.error e)
      | .ok f =>
        if f.year > m.year ∨ f.month > m.month then some (.ok [week])
        else match weeksLoop m fuel week' with
          | none => none
          | some (.error e) => some (.error e)
          | some (.ok l) => some (.ok (week :: l))

/-- `lunar_python/SolarMonth.py` 51-65 `getWeeks`, finished within `fuel` iterations -/
def getWeeks (m : SolarMonth) (start : ℤ) (fuel : ℕ) : Option (Except PyErr (List SolarWeek)) :=
  weeksLoop m fuel ⟨m.year, m.month, 1, start⟩

end SolarMonth

namespace Solar

/-- keys of `SolarUtil.WEEK_FESTIVAL` (`lunar_python/util/SolarUtil.py` 41-49): month, which, weekday -/
def weekFestivalKeys : List (ℤ × ℤ × ℤ) :=
  [(3, 0, 1), (5, 2, 0), (5, 3, 0), (6, 3, 0), (9, 3, 6), (10, 1, 1), (11, 4, 4)]

/-- the weekday festivals of `getFestivals`, `lunar_python/Solar.py` 178-185, as keys of
`WEEK_FESTIVAL`; strings `"%d-%d-%d"` of the three numbers are represented by the triple
(formatting is injective on integers). -/
def weekFestivals (s : Solar) : List (ℤ × ℤ × ℤ) :=
  let week := s.getWeek
  let k1 := (s.month, pyCeilDiv s.day 7, week)
  let l1 := if k1 ∈ weekFestivalKeys then [k1] else []
  let l2 :=
    if s.day + 7 > getDaysOfMonth s.year s.month then
      let k2 := (s.month, 0, week)
      if k2 ∈ weekFestivalKeys then [k2] else []
    else []
  l1 ++ l2

end Solar
