# lunar-python: formal model and proofs

This directory holds a Lean 4 model of `lunar_python` (pure-Python solar/lunar
calendar library) and kernel-checked proofs about it.  `properties.jsonl` lists the
properties, `MANIFEST.json` maps each to theorems, `seeded/LOG.jsonl` records the
seeded-bug experiments.

## Trusted base

* Lean 4.33.0 kernel.  No axioms of our own, no `sorry`, no `native_decide`, no
  `bv_decide`.  Theorems depend at most on `propext`, `Classical.choice`,
  `Quot.sound` (from core/Mathlib).
* The hand translation Python -> Lean in `lean/Verif/Model/*` (each definition cites
  file and lines).
* Data tables are copied from the repository text by the scripts in `tools/`
  (text processing only; nothing of the library is executed).
* Mathlib modules used as a library of lemmas (checked by the kernel).

## Layout

| path | content |
|---|---|
| `lean/Verif/Spec/*` | small independent specifications (calendar, 60-cycle, ...) - do not import `Model` |
| `lean/Verif/Model/*` | model of the code, function by function |
| `lean/Verif/Proof/*` | helper lemmas |
| `lean/Verif/Props/*` | the property theorems with witnessing examples |

## Modelling conventions

* Python `int` = Lean `Int` (unbounded).  `a % b` for `b>0` = `Int.emod`
  (non-negative, as Python).  `int(a / b)` on ints is `Int.tdiv` (truncation); the
  Python value goes through a double, which is exact for `|a| < 2^53`
  (proved: `F64.trunc_div_eq_tdiv`).
* Exceptions are `Except`/`Option` values; a function that can raise returns one.
* Strings are `List Char` (`PyStr`), compared code point by code point like Python.
* `float` in the Julian-day code is modelled as a rational with an explicit
  round-to-nearest-even at 53 bits after each operation (`F64.rnd`).  Exponent range
  (overflow, subnormals), NaN and infinities are not modelled; no value in the
  modelled code leaves `2^-60 .. 2^60` in magnitude for the ranges in the theorems.
* `while` loops are well-founded recursion or bounded by an explicit measure; no loop
  is cut off by fuel unless stated at the definition.
* The lunar model takes the astronomical functions as a parameter (`Astro`).  Theorems about lunar
  dates quantify over all almanacs meeting stated conditions.  The trigonometric series of `ShouXingUtil`
  are modelled too (`Verif/Model/ShouXing.lean`, see "The astronomical series").

## Not modelled

Some name/description getters that only index a constant table, Python object identity, memory and recursion limits.

## Properties: how each is treated

(see also MANIFEST.json; statuses there are authoritative)

| id | modelled | proof idea |
|---|---|---|
| C01-C03 | `nextDay`, `next`, `getDaysBetween`, `getDaysInYear` | closed-form day number `dayNo`, each loop iteration preserves it; injective on existing dates; compare with iterated `tomorrow` |
| C04 | `isBefore`, `isAfter` | lexicographic order = order of absolute seconds |
| C05 | `toYmd`, `toYmdHms` as char lists | fixed-width decimal strings compare like numbers; negation outside the range |
| C06-C09 | double arithmetic of `getJulianDay`, `fromJulianDay`, `getWeek` | error bound of `rnd`, bridge to integer formula |
| C10 | `SolarUtil` | case analysis on months |
| C11 | `Solar.__init__` | false in the code (upper bound test uses `month` for `day`): negation + exact characterisation |
| C12-C15 | `nextYear/nextMonth/nextHour/subtractMinute`, `SolarMonth...` | linear arithmetic |
| C16-C20 | `SolarMonth.getDays/getWeeks`, `SolarWeek` | via `dayNo` and weekday = dayNo mod 7; C19, C20 false in corner cases: negation + partial |
| C21-C22 | `getXingZuo`, `getFestivals` | case analysis |
| C23 | `next(n, True)` | loop over an arbitrary working-day predicate |
| C24-C28 | `HolidayUtil` over arbitrary record strings | alignment arithmetic, string replace semantics |
| C29-C30 | tables of `LunarUtil` | finite tables lifted to all strings |
| C31-C36 | pillar computations of `Lunar` | arithmetic mod 60 |
| C37-C44 | `LunarYear.compute`, `LunarMonth`, `Lunar` ctor, cache lock | induction over month list; state machine with invariant |
| C45-C58 | term search, ShuJiu, Fu, nine stars, mansions, EightChar, Yun, BaZi search, Foto/Tao, table lookups | arithmetic and finite tables |

## Where the code disagrees with its property

Each is proved as a negation with a concrete witness (theorem name contains `violated`); the
strongest true part is proved next to it.  See `tools/notes.json` for one line per property.

* C08: `fromJulianDay` can produce day 32 / raise in the last half second of a day.
* C11: `Solar.__init__` tests `month > 31` where `day > 31` is meant.
* C19, C20, C59: week numbering and week stepping in 1582-10, for week starts other than Sunday.
* C95: two different weeks of 1582-10 have the same text.
* C24: `getHoliday` with a year below 1000 never finds anything (`C24_short_year`).
* C27: `HolidayUtil.fix` replaces the text of a record wherever it occurs, also across a border.
* C34: when the lunar year is ahead of the solar year (AD 8-23, 237-239) the Li Chun pillars are a year ahead.
* C44: one failing `LunarYear.fromYear` leaves the lock held for ever.
* C62: `getCurrentJieQi` carries the moment asked about instead of the term's instant.
* C48: the month star with sect 1 changes at New Year inside a Jie month.
* C51: `DaYun.getGanZhi` wraps once only; far decades raise `IndexError`.
* C60: `LunarMonth.getGanZhi` is a month ahead after a leap month.
* C67: `FotoUtil.FESTIVAL` does not repeat every observance marked `isEveryMonth` (6th of month 11, 30th of
  month 12, 16th of month 10).
* C75: on 己巳, 己卯 and 己丑 days the great year god of the day is put at the place of the year, because the lists of
  `Lunar.getDayPositionTaiSui` have 已 for 己.
* C79: `LunarTime.getNineStar` raises `TypeError` for every date, comparing a `Solar` with a string.
* C69: `Solar.fromBaZi` tries one instant per double-hour, so it misses moments shortly before a Jie, and it leaves
  out the moments of `base_year` before its first Jie.
* C28: `HolidayUtil.fix` appends; the list of a year other than the last does not show the new day.
* C100: an anniversary on the thirtieth day of a month is on no day of a year in which that month has 29 days.
* C101: with the built-in data `getHolidaysByTarget` omits records of the National Days 2014, 2015 and 2017; two records have 4 October as
  National Day; two working day marks are on weekdays.
* C112: `getDayNineStar` jumps at some New Years (31 December 2008 to 1 January 2009, 2031 to 2032): the days before the first turning day of a year are counted backwards from it, those of the December before forward from summer, and these disagree when the two turns are 240 days apart.
* C114: `getTimeNineStar` counts the hour from 23:00 from the branch of the day that ends while its double-hour is already that of the next midnight: at every midnight the two halves of one double-hour, with one pillar, have different stars.
* C103: two corrections of one day in one call of `fix`: if the day is new the first stays in force, otherwise the second.

## The astronomical series

`Verif/Model/ShouXing.lean` has the whole of `util/ShouXingUtil.py`, written once over a class `FloatLike` of number
types.  Instance `Fl M` is the program: rationals rounded to 53 bits after every operation, with `sin` and `cos` taken
from a record `M : Libm`, because Python calls the C library.  All that is assumed of the C library is `Libm.Good M`: the
results are within `2 ^ -50` of the real sine and cosine, and between -1 and 1.  Instance `Aff c h θ` is a form of affine
arithmetic in integers: sets of numbers `a + b (n - c) ± r` for a whole block of years or months `n`, which the kernel can compute with.
`Proof/AffSound`, `CosSound`, `TrigSound`, `Rows`, `Closure`, `MoonBlock`, `Blocks` prove that the second encloses the
first.  `Proof/High/*` are tables of lines near the instants of the solar terms and new moons of 1961-9999, checked by
the kernel; where the lines are too coarse to say which month is leap, single days are computed.
`Proof/Low/*` do the same for 1584-1960, where the library corrects simpler series by tables packed into a text: here
the kernel unpacks the text and checks the day of every solar term and every new moon.
Tables are written by `tools/high.py` and `tools/low.py`; nothing in them is trusted.

`Proof/Ephem/*` put this together: `Bins` (what `compute` needs of the three functions), `Facts`, `Full` (what must hold of the
sequences of solar terms and new moons), `Keys`, `Terms`, `Almanac` (from there to `Almanac` and `SunAlmanac`, for any
functions), `Astro`, `Days`, `Range` (`Facts` and `Full` for the functions of the library).  C84 (`Props/Library.lean`) says that the library's
functions meet `Almanac` and `SunAlmanac` for 1584-6890, so C38-C42, C47, C48, C51, C52, C55, C66, C69, C78-C80 hold for them without
an astronomical hypothesis (but for the lengths of months where one of them asks for these).  C85 (`Props/LeapRule.lean`) proves for
1584-9997 that leap months follow the rule of the national standard, stated in `Spec/LeapRule.lean` by the days of the
principal terms which `calcQi` gives: the loop of `compute` and the tables `LEAP_11`, `LEAP_12` agree with it.

`Proof/Lunation/*` prove that the months of 1584-5000 have 29 or 30 days (C86, `Props/MonthLength.lean`).  Up to 1960 this is
read off the tables of `Proof/Low`.  From 1961 on it is analysis, not computation: a third instance of `FloatLike`, the real
numbers (`Near`), with a bound for the distance of the doubles from it (`Near`, `Groups`, `Series`, `Steps`, `Times`); the series as main
terms and a remainder (`Real`, `Sun`); first and second order bounds for the elongation of the moon from the sun (`Newton`, `Second`);
what the Newton steps of `msaLonT2` and `msaLonT` reach (`Roots`); from one multiple of 2π to the next (`Month`); the
correction `dtT`, which changes by less than 155 seconds in a year (`Delta`); days (`Days`, `Table`).  The bounds hold
to about the year 5010, where the powers of the time in the series become too large.

C87-C89 (`Props/Everyday.lean`, over `Proof/Ephem/Summer`, `Made`) restate C42, C45-C48, C50, C51, C55, C78, C80 for the functions of the
library with no hypothesis on the sky: `Ephem.made` says that a lunar date made from a moment of 1585-6889 is `Lunar.Proper` and which
instants its table holds; `Summer` bounds the time from the summer solstice to Li Qiu.  C90 (`Props/TermGaps.lean`, `Proof/Ephem/Gaps`) compares
neighbouring lines of the tables, C91 (`Props/TermDates.lean`, `Proof/Ephem/Dates`) compares them year by year with the days of the solar
calendar listed in `Spec/TermDates.lean`.  C92 (`Props/NewYear.lean`, `Proof/Ephem/NewYear`) puts the New Year between 大寒 and the latest of
雨水, 60 days after 冬至 and 30 days after 大寒 (months of at most 30 days by C86, leap months by C85) and takes the dates of these terms,
now as days found by `calcQi`, from the same lines.  C93 (`Props/YearLength.lean`, `Proof/Ephem/Own`, `Proof/Lunation/Year`, `YearDays`) follows
the elongation over twelve and thirteen months: the equation of the centre and the evection are bounded together, the sun's term by its
distance from a whole year, the rest by its amplitude.  C97 (`Props/MonthPillar.lean`, `Proof/Ephem/MonthPillar`) bounds the distance of the
first day of a lunar month from the principal term of its number, counting months of 29 or 30 days from the solstice before, the
leap month or the solstice after, and compares with the Jie on both sides.  C104 (`Props/DailyCycles.lean`) puts C91 and the pillars together: the month pillar by civil date, officers and spirits from day to day.  C105 (`Props/TermWalk.lean`) numbers the terms of all years in one row (the tables of two years overlap in seven entries) and follows the searches along it.  C106 (`Props/Stars.lean`) reads the nine stars off the same civil dates.  C107 (`Props/ChartMoments.lean`) shows that four pillars name one double-hour within a cycle of sixty years, for every almanac of Sun and Moon and for the library's own, and hence that the answers of `Solar.fromBaZi` are sparse.  C108 and C109 (`Props/LunarOrder.lean`): lunar dates are ordered by their parts like the moments they stand for, and a lunar anniversary is 353–355 or 383–385 days away; two windows from solstice to solstice with thirteen months never follow one another, since 26 months are longer than two solar years.  C110 (`Props/SeasonDates.lean`) removes the solar terms from C87: a year has its day of July, of August and of December, and these say what every moment of the season is told.  C111 and C112 (`Props/DayStars.lean`): attributes of the nine stars against the magic square, and the star of the day from day to day, also over New Year.  C113 (`Props/Pentads.lean`): one count of pentads through all days, from which `getWuHou`, `getHou` and `getJieQi` of every moment are read.  C114 (`Props/HourStars.lean`): the same for the stars of the double-hours.  C115 (`Props/Constancy.lean`) compares two moments of one day or of one double-hour: the objects agree in all fields that the answers read.  C116 (`Props/ChartState.lean`, `Model/ChartState.lean`) shows that the text of a chart fixes its answers, and follows the chart objects of one `Lunar` through any sequence of calls; in the model charts are known by the order in which they were made, and `setSect` of a chart not made yet does nothing (no program can do it).  C117 (`Props/TermDays.lean`) compares the two series of the sun.  `Proof/SunDay` proves, over the reals, that one step of
  Newton with the short series leaves the longitude within 0.000206 rad and the long one within 0.0000008 rad, bounds the
  rounding of both, and the change of `dtT` within a day (10.4 s, because of the jump at 2028); together the day of `qiHigh` and
  the instant of `qiAccurate` agree but for 19 seconds about midnight (20 with the rounding of the table to seconds).  The
  claim is for 1961 on: before, the days come from tables and corrections that follow history, not the series.
  For 1961–2099 the exception is removed (`Proof/SunDay/Clear.lean`, `Recent.lean`): rows of C84 keep all principal terms but 263 of 1680 off midnight, the 263 are placed by half minutes one at a time (`Near0`–`Near3`, from `tools/clear.py`), and 大寒 of 1980, at 23:59:55, is shown to be on the day both ways.  C118 (`Props/SunPlace.lean`) states what `Proof/SunDay` knows of `saLonT` by itself: `Spec.SunAt W t` says that the series on real numbers give the longitude `W` at `t`; the instant exists by the intermediate value theorem, is unique because the longitude grows at 605 rad a century or more, and the function of the library finds it to 4.2 s.  C119 (`Props/MoonAge.lean`) does the same for the moon with the bounds of C86 (`Proof/Lunation`): `Spec.elongation` is `msaLon` on real numbers, the time found has it right to 0.01 rad, and between new moons it runs with the mean motion to 0.42 rad, twice the sum of all amplitudes.  C120 (`Props/SunPillar.lean`) joins C118 with C34, C35 and C45: between two entries of the table the longitude, which grows at 605 to 652 rad a century, is between their places (`Proof/SunDay/Between.lean`), and the pillars and neighbouring terms of a moment are those of the entries around it; the tolerance 0.00025 rad is for 14 minutes of doubt about ΔT.
  C121 (`Props/Zodiac.lean`) does the same for `getXingZuo`, whose fixed days C91 puts within two or three days of the principal terms; `Spec.zodiac` lists the signs by longitude.
  C122 (`Props/PentadSun.lean`) does so for the pentads of C113, whose count is taken with the number of the term before each day (`pentads_count`).
  C123 (`Props/MonthSun.lean`) puts C97 and C120 together: the number of the lunar month is within one of that of the month pillar, which is the place of the sun.
  C118 and C120–C123 reach back to 1585 (C123 to 1587): the table `DT_AT` of the difference of dynamical and universal time is bounded from 1584 on by the Bernstein values of its cubics (`Proof/SunDay/DeltaEarly.lean`).
  C124 (`Props/LeapYears.lean`) counts the leap months of any stretch of lunar years, from the window of the New Year (C92), the lengths of the years (C93) and the straight line about which the new moons lie (`Ephem/Bins.lean`).
  C125 (`Props/MoonNames.lean`) reads the names of `getYueXiang` with the elongation of C119; `Spec.lit`, the lit part of the disc, goes by the longitudes alone.
  C126 (`Props/Metonic.lean`, `Proof/Lunation/Nineteen.lean`) compares the series at a new moon and at the 235th after it, as C93 does at the twelfth and thirteenth; it starts in 1961, where the new moons are computed by the series and not taken from the table.
  C127 (`Props/TaoYear.lean`) puts C68 (`Props/TaoDays.lean`) and C91 together: on which days of the year the Taoist festivals of the sun fall.
  C98 (`Props/Luck.lean`) puts C51, C88 and C30 together for
all periods of a life.

## Holidays

`HolidayUtil` is modelled over an arbitrary state (names, data string), so the theorems hold for the
shipped table and for every table produced by `fix`.  The working-day loop of `Solar.next` takes fuel
(`Solar.workLoop`); C23 proves that enough fuel exists and how much.

The table the library comes with is `Model/HolidayData.lean`, written by `tools/holidays.py` from `HolidayUtil.py`: the 821 records as numbers of
18 digits, `DATA` their digits one after the other.  `Proof/HolidayData` checks the records in the kernel as numbers and carries the results over
to texts; C101 (`Props/BuiltIn.lean`) applies C23-C28 to it.  That the record text of no day occurs across a border of records
(`HData.aligned`, by comparing every two neighbouring records at all 17 offsets) removes the hypothesis of C27 for a first correction.
C103 (`Props/Corrections.lean`, `Proof/Corrections.lean`) does the same for any history of corrections of years 2024-2099 ending in 4 to 9:
no window across the border of two such records, or of the last record of 2023 and such a record, is such a record (`window_ne`, by the
fields of the 17 windows), so each search and replace changes one record.
C102 (`Props/NamedDays.lean`) has the texts of holidays and seasonal days.

## Lunar years, months and dates

`LunarYear.compute` is modelled in full, over three astronomical functions that are the fields of `Astro`; the theorems of this
section hold for every `Astro`, in particular for that of the library (`ShouXing.astro`).

* C37, C60 need nothing more (the numbering excludes the two eras in which the code renumbers months).
* C38-C42 need that the 15-month lists of neighbouring years are windows of one sequence of months.
  That is a property of the astronomical series, so it is the hypothesis `Almanac A lo hi`
  (`Verif/Spec/Almanac.lean`).  `Sample.almanac` (`Verif/Proof/SampleAlmanac.lean`) proves it for the
  real days of the new moons and solar terms of 2022-2025 (all terms put at 15:30), so the hypothesis is not vacuous.
* The pillar theorems C31-C36 take the table of 31 solar terms as input (`Lunar.TermTable`: existing
  moments in chronological order, Li Chun in the solar year).
* `LunarMonth.next` is a `while True` loop; the model takes fuel, and C42 shows that `|n| + 2` passes are
  enough and that more fuel does not change the result.

## The year cache and its lock

`LunarYear.fromYear` (lines 42-51) is modelled twice: as the pure function `LunarYear.make` used by
everything else, and as a transition system (`Verif/Model/YearCache.lean`) in which any number of threads
run its lines, each read or write of the class attribute and each lock operation being one step.  C43 shows
that the two agree (every completed call returns `make y`), for every interleaving.  C44 is false: the lock
is not released when the constructor raises.  Not modelled: exceptions raised asynchronously (signals,
`MemoryError`), and a non-integer argument that happens to work (`2024.0`).

## Solar terms of a lunar date

`Verif/Model/JieQi.lean` models the searches in the table of 31 terms (`getNearJieQi` and the six public
calls on it, the terms of the day, `getShuJiu`, `getFu`, `getWuHou`, `getHou`); `int(x / 5)`, `int(days / 9)`
are taken as exact integer division (day counts are far below 2^53).  C45, C46, C62 and C63 hold for every
table of existing instants in order (`TermTable`), C47 in addition needs the lunar date of the solstice
(`Almanac`).  Finding: `getCurrentJieQi` puts the moment asked about into the `JieQi` object instead of the
term's instant (C62), unlike `getCurrentJie` and `getCurrentQi`.

## Moments with given pillars

`Verif/Model/BaZi.lean` models `Solar.fromBaZi`; the present year is a parameter.  C52_sound holds for every
`Astro`.  Order and completeness (C52_ordered, C69) need that the term tables of neighbouring years agree:
`SunAlmanac` (`Verif/Spec/SunAlmanac.lean`), met by the sample (`Sample.sunAlmanac`).

## Charts

`Verif/Model/EightChar.lean` models `EightChar`; the sixteen getters per attribute (year, month, day, hour)
are one function of a position `Pos`.  C56-C58, C64 and the derived pillars of C36 hold for every `Lunar`
object meeting `Lunar.Proper` (fields as computed, a term table in order, the lunar year within one of the
solar year); `sample_proper` is a concrete one.

`Verif/Model/Yun.lean` models the package `eightchar`.  `LiuNian.getGanZhi` goes through the lunar date of the
Li Chun instant, so its theorem needs the almanac hypothesis of C38 and that Li Chun's lunar year is its solar
year or the one before.

## Nine stars

`Verif/Model/NineStar.lean` models `NineStar.py` and the star of a `LunarYear`, `LunarMonth` and of the year,
month, day and hour of a `Lunar`; `int(x / 60)` is exact truncating division.  `LunarTime.getNineStar` is not
covered by C48: it compares a `Solar` with a string and raises `TypeError`.

## First-month sayings

`Verif/Model/Zao.lean` models `LunarYear.__getZaoByGan`, `__getZaoByZhi` and the getters built on them
(`几龙治水` etc.).  `str.replace(old, new, 1)` replaces the first occurrence only; `LunarUtil.NUMBER` supplies the
numerals.  C55 is stated on the sexagenary day of the first day of the first month, taken from the almanac.

## The day of a lunar date, Buddhist and Taoist calendars

`Verif/Model/LunarDay.lean` models the remaining getters of `Lunar` (names, directions, clashes, spirits, festivals,
`toString`, `toFullString`); `Verif/Model/FotoTao.lean` models `Foto.py`, `Tao.py` and the functions of their
utility modules.  Keys such as `"%d-%d" % (month, day)` are kept as strings; `Verif/Proof/Keys.lean` proves that
looking up such a key is looking up the pair of numbers, for all integers.

## The packed lists of the almanac

`Verif/Model/YiJi.lean` models `LunarUtil.getDayYi`, `getDayJi`, `getDayJiShen`, `getDayXiongSha`, `getTimeYi` and
`getTimeJi` with the searches the code makes in the three long texts (`find` of the key, cut before the next key,
the `while` loop over the records of a day).  The texts are kept in `YiJiTables.lean` as records of packed numbers;
`tools/tables.py` refuses to write the file unless the records put together are the text of the repository, and the
model rebuilds the text from them before it searches.  `int(s, 16)` is modelled for hexadecimal digits only (the texts
hold nothing else); `len`, slices and `find` are exact.  C54 is proved for every text of month, day and hour: the 3600
pairs of month and day, the 720 pairs of day and hour that can occur, the months 1 to 12 with the 60 day pairs, and the
list `无` for all others (month numbers of spirits below 16).  The whole tables are checked in the kernel by the
functions of `Verif/Proof/Packed.lean`.

## Attributes of a day, words and festivals

`Verif/Spec/DayLore.lean` writes down the traditional rules (clashes, officers, spirits, directions, year god, womb god)
as functions of the number of the pillar in the sixty, most of them by arithmetic or by the phase of the stem instead of
by the tables of the code.  C71-C77 hold for every `Proper` lunar date: an object whose stored indices are those its own
moment has (`Verif/Proof/LunarDay.lean`; the constructor gives such objects).  `Verif/Spec/Words.lean` spells dates out;
`Verif/Spec/LunarFestivals.lean` lists the festivals by month and day and defines the fifth 戊 day by counting 戊 days.
C75 is false on three days of the sixty because of a misprinted character.

`Verif/Model/LunarTime.lean` models `LunarTime.py` completely; the lines of `getNineStar` after the comparison that always
raises are not modelled.  C38_proper says that the dates made by the constructors are `Proper`.

`Verif/Model/Texts.lean` holds the texts of solar dates and of periods (C94, C95); that texts differ is shown by reading them
from the left: a number ends at the first character that is no digit (`Verif/Proof/Texts.lean`).  `Props/Positions.lean` (C96) reuses the tables of `Spec/DayLore.lean` for years and months.
