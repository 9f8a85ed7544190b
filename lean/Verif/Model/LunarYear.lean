import Verif.Model.Lunar

/-! # `LunarYear.py`, `LunarMonth.py`, the `Lunar` constructor

The astronomical functions of `util/ShouXingUtil.py` are parameters. -/

/-- The three functions of `util/ShouXingUtil.py` that `LunarYear.compute` calls, left abstract:
`calcQi` (lines 612-645) and `calcShuo` (578-609) return whole days relative to J2000 (they end in
`floor`), `qiAccurate2` (653-661) returns a double. -/
structure Astro where
  calcQi : ℚ → ℤ
  calcShuo : ℚ → ℤ
  qiAccurate2 : ℚ → ℚ

/-- `lunar_python/LunarMonth.py` 11-17 (the field `__zhiIndex` is the function `zhiIndex` below) -/
structure LunarMonth where
  year : ℤ
  month : ℤ
  dayCount : ℤ
  firstJulianDay : ℤ
  index : ℤ
  deriving DecidableEq, Repr

namespace LunarMonth

/-- `lunar_python/LunarMonth.py` 17, 33-34 -/
def zhiIndex (m : LunarMonth) : ℤ := (m.index - 1 + LunarUtil.BASE_MONTH_ZHI_INDEX) % 12

/-- `lunar_python/LunarMonth.py` 79-80 `isLeap` -/
def isLeap (m : LunarMonth) : Bool := m.month < 0

end LunarMonth

/-- `lunar_python/LunarYear.py` 27-40 -/
structure LunarYear where
  year : ℤ
  ganIndex : ℤ
  zhiIndex : ℤ
  months : List LunarMonth
  jieQiJulianDays : List ℚ
  deriving DecidableEq, Repr

namespace LunarYear
open F64

/-- `Solar.J2000` (`lunar_python/Solar.py` 14) -/
def J2000 : ℤ := 2451545

/-- the double 365.2422 (`lunar_python/LunarYear.py` 65-69) -/
def c365 : ℚ := rnd (3652422 / 10000)
/-- the double 15.2184 (`lunar_python/LunarYear.py` 72, 77, 81) -/
def c15 : ℚ := rnd (152184 / 10000)
/-- the double 29.53 (`lunar_python/LunarYear.py` 87) -/
def c2953 : ℚ := rnd (2953 / 100)
/-- the double 29.5306 (`lunar_python/LunarYear.py` 90) -/
def c295306 : ℚ := rnd (295306 / 10000)

/-- the 26 entries of `jq`, `lunar_python/LunarYear.py` 64-72 -/
def computeJq (A : Astro) (year : ℤ) : List ℤ :=
  let jd := ⌊add (mul (year - 2000 : ℤ) c365) 180⌋
  let w := add (mul ⌊div (jd - 355 + 183 : ℤ) c365⌋ c365) 355
  let w := if A.calcQi w > jd then sub w c365 else w
  (List.range 26).map (fun i : ℕ => A.calcQi (add w (mul c15 i)))

/-- `jieQiJulianDays`, `lunar_python/LunarYear.py` 74-82 -/
def computeTerms (A : Astro) (jq : List ℤ) : List ℚ :=
  (List.range 31).map (fun i : ℕ =>
    let jd :=
      if i = 0 then A.qiAccurate2 (sub (jq.getD 0 0) c15)
      else if i ≤ 26 then A.qiAccurate2 (jq.getD (i - 1) 0)
      else A.qiAccurate2 (add (jq.getD 25 0) (mul c15 (i - 26 : ℕ)))
    add jd J2000)

/-- the 16 entries of `hs`, `lunar_python/LunarYear.py` 84-90 -/
def computeHs (A : Astro) (jq : List ℤ) : List ℤ :=
  let w := A.calcShuo (jq.getD 0 0)
  let w : ℚ := if w > jq.getD 0 0 then sub w c2953 else w
  (List.range 16).map (fun i : ℕ => A.calcShuo (add w (mul c295306 i)))

/-- the `while` loop of `lunar_python/LunarYear.py` 105-107.  It is entered only when
`hs[13] <= jq[24]`, so it stops at 12 at the latest (`leapLoop_le`) and never reads past `jq`. -/
def leapLoop (hs jq : List ℤ) (i : ℕ) : ℕ :=
  if hs.getD (i + 1) 0 > jq.getD (2 * i) 0 ∧ i < 13 then leapLoop hs jq (i + 1) else i
  termination_by 13 - i

/-- `leap_index`, `lunar_python/LunarYear.py` 97-107 -/
def leapIndex (year : ℤ) (hs jq : List ℤ) : ℕ :=
  if year ∈ LEAP_11 then 13
  else if year ∈ LEAP_12 then 14
  else if hs.getD 13 0 ≤ jq.getD 24 0 then leapLoop hs jq 1
  else 16

/-- `ymc`, `lunar_python/LunarYear.py` 110 -/
def ymc : List ℤ := [11, 12, 1, 2, 3, 4, 5, 6, 7, 8, 9, 10]

/-- the loop of `lunar_python/LunarYear.py` 112-137; arguments: `leap_index`, `hs`, the index `i`, the
number of passes left, and the variables `fm`, `index`, `y` -/
def monthLoop (leap_index : ℕ) (hs : List ℤ) : ℕ → ℕ → ℤ → ℤ → ℤ → List LunarMonth
  | _, 0, _, _, _ => []
  | i, n + 1, fm, index, y =>
    let dm := hs.getD i 0 + J2000
    -- `months[i]`: `i`, one less from `leap_index` on (lines 94, 108-109)
    let v2 : ℕ := if leap_index ≤ i then i - 1 else i
    let mc := ymc.getD (v2 % 12) 0
    let mc :=
      if 1724360 ≤ dm ∧ dm < 1729794 then ymc.getD ((v2 + 1) % 12) 0
      else if 1807724 ≤ dm ∧ dm < 1808699 then ymc.getD ((v2 + 1) % 12) 0
      else if dm = 1729794 ∨ dm = 1808699 then 12
      else mc
    let (fm, index) := if fm = -1 then (mc, mc) else (fm, index)
    let (y, index) := if mc < fm then (y + 1, 1) else (y, index)
    let fm := mc
    let mc := if i = leap_index then -mc else if dm = 1729794 ∨ dm = 1808699 then -11 else mc
    { year := y, month := mc, dayCount := hs.getD (i + 1) 0 - hs.getD i 0, firstJulianDay := dm, index := index }
      :: monthLoop leap_index hs (i + 1) n fm (index + 1) y

/-- `lunar_python/LunarYear.py` 27-40, 53-137: the object for a year.  `fromYear` (42-51) returns this
object, from the cache or new; see `Model/YearCache.lean` for the cache itself. -/
def make (A : Astro) (year : ℤ) : LunarYear :=
  let jq := computeJq A year
  let hs := computeHs A jq
  { year := year, ganIndex := (year - 4) % 10, zhiIndex := (year - 4) % 12
    months := monthLoop (leapIndex year hs jq) hs 0 15 (-1) (-1) (year - 1)
    jieQiJulianDays := computeTerms A jq }

/-- `lunar_python/LunarYear.py` 166-171 `getDayCount` -/
def getDayCount (y : LunarYear) : ℤ := ((y.months.filter (fun m => m.year = y.year)).map LunarMonth.dayCount).sum

/-- `lunar_python/LunarYear.py` 173-178 `getMonthsInYear` -/
def getMonthsInYear (y : LunarYear) : List LunarMonth := y.months.filter (fun m => m.year = y.year)

/-- `lunar_python/LunarYear.py` 186-194 `getLeapMonth` -/
def getLeapMonth (y : LunarYear) : ℤ :=
  match y.months.find? (fun m => m.year = y.year ∧ m.isLeap) with
  | some m => |m.month|
  | none => 0

/-- `lunar_python/LunarYear.py` 196-205 `getMonth` -/
def getMonth (y : LunarYear) (lunar_month : ℤ) : Option LunarMonth :=
  y.months.find? (fun m => m.year = y.year ∧ m.month = lunar_month)

end LunarYear

namespace LunarMonth
open LunarUtil

/-- `lunar_python/LunarMonth.py` 36-38 `getGanIndex` -/
def getGanIndex (A : Astro) (m : LunarMonth) : ℤ :=
  let offset := ((LunarYear.make A m.year).ganIndex + 1) % 5 * 2
  (m.index - 1 + offset) % 10

/-- `lunar_python/LunarMonth.py` 40-47 `getGan`, `getZhi`, `getGanZhi` -/
def getGanZhi (A : Astro) (m : LunarMonth) : Except PyErr PyStr := do
  let gan ← pyIndex GAN (m.getGanIndex A + 1)
  let zhi ← pyIndex ZHI (m.zhiIndex + 1)
  return gan ++ zhi

/-- `lunar_python/LunarMonth.py` 19-22 `fromYm` (`None` when there is no such month) -/
def fromYm (A : Astro) (lunar_year lunar_month : ℤ) : Option LunarMonth :=
  (LunarYear.make A lunar_year).getMonth lunar_month

/-- the loop of `lunar_python/LunarMonth.py` 134-150 (`n > 0`): `fuel` bounds the number of passes,
`none` when it is used up; the theorems show that the loop ends and with which result.  The `for`
(136-140) keeps the old `index` when nothing matches. -/
def nextFwd (A : Astro) : ℕ → ℤ → ℤ → ℤ → ℕ → ℕ → Option LunarMonth
  | 0, _, _, _, _, _ => none
  | fuel + 1, ny, iy, im, index, rest =>
    let months := (LunarYear.make A ny).months
    let index := (months.findIdx? (fun m => m.year = iy ∧ m.month = im)).getD index
    let more := months.length - index - 1
    if rest < more then months[index + rest]?
    else match months.getLast? with
      | some last_month => nextFwd A fuel (ny + 1) last_month.year last_month.month index (rest - more)
      | none => none

/-- the loop of `lunar_python/LunarMonth.py` 158-173 (`n < 0`) -/
def nextBwd (A : Astro) : ℕ → ℤ → ℤ → ℤ → ℕ → ℕ → Option LunarMonth
  | 0, _, _, _, _, _ => none
  | fuel + 1, ny, iy, im, index, rest =>
    let months := (LunarYear.make A ny).months
    let index := (months.findIdx? (fun m => m.year = iy ∧ m.month = im)).getD index
    if rest ≤ index then months[index - rest]?
    else match months.head? with
      | some first_month => nextBwd A fuel (ny - 1) first_month.year first_month.month index (rest - index)
      | none => none

/-- `lunar_python/LunarMonth.py` 119-173 `next` -/
def next (A : Astro) (fuel : ℕ) (m : LunarMonth) (n : ℤ) : Option LunarMonth :=
  if n = 0 then fromYm A m.year m.month
  else if n > 0 then nextFwd A fuel m.year m.year m.month 0 n.toNat
  else nextBwd A fuel m.year m.year m.month 0 (-n).toNat

end LunarMonth

namespace Lunar

/-- `lunar_python/Lunar.py` 47-52 `__computeJieQi`: the table of terms -/
def computeJieQi (julian_days : List ℚ) : Except PyErr (List Solar) := julian_days.mapM Solar.fromJulianDay

/-- `lunar_python/Lunar.py` 13-37 the constructor, also `fromYmdHms` (183-185) -/
def fromYmdHms (A : Astro) (lunar_year lunar_month lunar_day hour minute second : ℤ) : Except PyErr Lunar := do
  let y := LunarYear.make A lunar_year
  match y.getMonth lunar_month with
  | none => .error .exception
  | some m =>
    if lunar_day < 1 then .error .exception
    else if lunar_day > m.dayCount then .error .exception
    else
      let noon ← Solar.fromJulianDay (m.firstJulianDay + lunar_day - 1 : ℤ)
      let solar ← Solar.fromYmdHms noon.year noon.month noon.day hour minute second
      let y := if noon.year ≠ lunar_year then LunarYear.make A noon.year else y
      let jieQi ← computeJieQi y.jieQiJulianDays
      compute lunar_year lunar_month lunar_day hour minute second solar jieQi

/-- `lunar_python/Lunar.py` 187-189 `fromYmd` -/
def fromYmd (A : Astro) (lunar_year lunar_month lunar_day : ℤ) : Except PyErr Lunar :=
  fromYmdHms A lunar_year lunar_month lunar_day 0 0 0

/-- the search loop of `lunar_python/Lunar.py` 202-207 (year, month, day; 0, 0, 0 when it falls through) -/
def findMonth (solar : Solar) : List LunarMonth → Except PyErr (ℤ × ℤ × ℤ)
  | [] => .ok (0, 0, 0)
  | m :: ms => do
    let first ← Solar.fromJulianDay m.firstJulianDay
    let days ← solar.subtract first
    if days < m.dayCount then return (m.year, m.month, days + 1) else findMonth solar ms

/-- `lunar_python/Lunar.py` 195-208 `fromSolar`, `Solar.getLunar` (`lunar_python/Solar.py` 251-257) -/
def fromSolar (A : Astro) (solar : Solar) : Except PyErr Lunar := do
  let ly := LunarYear.make A solar.year
  let (year, month, day) ← findMonth solar ly.months
  fromYmdHms A year month day solar.hour solar.minute solar.second

/-- `lunar_python/Lunar.py` 1123-1129 `next` -/
def next (A : Astro) (l : Lunar) (days : ℤ) : Except PyErr Lunar := do
  let s ← l.solar.next days
  fromSolar A s

end Lunar
