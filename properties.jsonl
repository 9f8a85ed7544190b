{"id": "C01", "title": "Solar.next(n) is n applications of 'tomorrow' / 'yesterday'", "statement": "For every existing calendar date s (Julian rules through 1582-10-04, Gregorian from 1582-10-15) and every integer n, s.next(n) succeeds, is again an existing calendar date with the same clock time, and is the date reached by stepping |n| times to the following (n>0) or preceding (n<0) civil day; in particular next(1) of 1582-10-04 is 1582-10-15.", "quantifier": "all existing dates in every integer year (negative years included), all integers n (unbounded)", "why_tests_cant": "The walk is an unbounded loop over months; tests only sample start dates and distances.", "anchors": ["lunar_python/Solar.py:nextDay", "lunar_python/Solar.py:next", "lunar_python/util/SolarUtil.py:getDaysOfMonth"]}
{"id": "C02", "title": "Solar.next is a group action of the integers", "statement": "s.next(a).next(b) equals s.next(a+b) and s.next(0) equals s, for every existing date s and all integers a, b; so next(-n) undoes next(n).", "quantifier": "all existing dates, all integers a and b", "why_tests_cant": "Pairs (a,b) of either sign crossing month, year and 1582 boundaries are unbounded.", "anchors": ["lunar_python/Solar.py:next", "lunar_python/Solar.py:nextDay"]}
{"id": "C03", "title": "Solar.subtract counts days", "statement": "For existing dates a and b, b.subtract(a) is the unique integer n with a.next(n) on b's date; hence it is antisymmetric, additive (c-a = (c-b)+(b-a)) and zero exactly on equal dates.", "quantifier": "all pairs / triples of existing dates", "why_tests_cant": "Quantifies over all pairs of dates and sums over an unbounded range of years.", "anchors": ["lunar_python/Solar.py:subtract", "lunar_python/util/SolarUtil.py:getDaysBetween", "lunar_python/util/SolarUtil.py:getDaysInYear"]}
{"id": "C04", "title": "isBefore / isAfter are the strict chronological order", "statement": "On existing moments isBefore is a strict total order, isAfter is its converse, exactly one of isBefore, isAfter, equality holds, and a.isBefore(b) holds iff b lies a positive number of seconds after a.", "quantifier": "all pairs / triples of existing moments", "why_tests_cant": "Order laws are universally quantified.", "anchors": ["lunar_python/Solar.py:isBefore", "lunar_python/Solar.py:isAfter"]}
{"id": "C05", "title": "toYmd / toYmdHms strings sort chronologically for years 0..9999", "statement": "For existing moments with years in 0..9999, string comparison of toYmd (toYmdHms) agrees with chronological comparison of the dates (moments); this is what every solar-term comparison in the library relies on. Outside that range (negative years, years above 9999) it is false.", "quantifier": "all pairs of existing moments with year 0..9999", "why_tests_cant": "All pairs of dates; a sample says nothing about carry boundaries.", "anchors": ["lunar_python/Solar.py:toYmd", "lunar_python/Solar.py:toYmdHms", "lunar_python/Lunar.py:__computeYear", "lunar_python/Lunar.py:__computeMonth", "lunar_python/Lunar.py:__getNearJieQi"]}
{"id": "C06", "title": "Julian day number counts civil days", "statement": "For existing dates with year in -4715..9999 at noon, getJulianDay is an integer, it increases by exactly 1 from each civil day to the next (also across 1582-10-04/15), it agrees with subtract on differences, and 2000-01-01 12:00 has 2451545.", "quantifier": "all existing dates of years -4715 .. 9999 under the code's IEEE double arithmetic", "why_tests_cant": "The computation is in floating point; exactness for all inputs needs an error argument.", "anchors": ["lunar_python/Solar.py:getJulianDay"]}
{"id": "C07", "title": "fromJulianDay inverts getJulianDay to the second", "statement": "For every existing moment s with year in -4712..9999, Solar.fromJulianDay(s.getJulianDay()) is s exactly (same year, month, day, hour, minute, second) in spite of double rounding.", "quantifier": "all 315 billion seconds of the range", "why_tests_cant": "Floating point rounding at every one of 3e11 seconds cannot be enumerated by tests.", "anchors": ["lunar_python/Solar.py:fromJulianDay", "lunar_python/Solar.py:getJulianDay"]}
{"id": "C08", "title": "fromJulianDay always yields an existing moment", "statement": "For every double jd of the supported range, fromJulianDay(jd) is an existing moment whose Julian day is within half a second of jd.", "quantifier": "all non-negative doubles below 5373850 (year 9999)", "why_tests_cant": "All doubles; failures sit in half-second windows before midnight at month ends.", "anchors": ["lunar_python/Solar.py:fromJulianDay"]}
{"id": "C09", "title": "getWeek advances by one every civil day", "statement": "For existing dates (year in -4712..9999), getWeek lies in 0..6, the next civil day has getWeek+1 modulo 7 (no jump at the 1582 gap), it does not depend on the clock time, and 2000-01-01 is 6 (Saturday).", "quantifier": "all existing moments", "why_tests_cant": "All dates and clock times, through double arithmetic.", "anchors": ["lunar_python/Solar.py:getWeek", "lunar_python/Solar.py:getJulianDay"]}
{"id": "C10", "title": "Day-of-year bookkeeping adds up", "statement": "For every year the month lengths of getDaysOfMonth sum to getDaysOfYear (355 in 1582), getDaysInYear of an existing date is its 1-based position in its year, and January 1 has position 1 and December 31 position getDaysOfYear.", "quantifier": "all integer years, all existing dates", "why_tests_cant": "All years.", "anchors": ["lunar_python/util/SolarUtil.py:getDaysOfMonth", "lunar_python/util/SolarUtil.py:getDaysOfYear", "lunar_python/util/SolarUtil.py:getDaysInYear", "lunar_python/util/SolarUtil.py:isLeapYear"]}
{"id": "C11", "title": "Constructor acceptance", "statement": "Solar.fromYmdHms accepts exactly the existing moments: every existing moment is accepted, every non-existing one (month 13, February 30, 1582-10-10, hour 24 ...) is rejected with an exception.", "quantifier": "all integer sextuples", "why_tests_cant": "All integer tuples.", "anchors": ["lunar_python/Solar.py:__init__"]}
{"id": "C12", "title": "nextMonth / nextYear keep the date real and move the month count exactly", "statement": "For every existing date and integer n: nextMonth(n) succeeds with an existing date whose month count 12*year+month grew by exactly n, whose clock time is unchanged and whose day is min(day, last day of the target month) (days 5..14 become 15..24 in 1582-10); nextYear(n) likewise moves the year by n and keeps the month, with February 29 becoming 28 in common years.", "quantifier": "all existing dates, all integers n", "why_tests_cant": "Unbounded n and all dates.", "anchors": ["lunar_python/Solar.py:nextMonth", "lunar_python/Solar.py:nextYear", "lunar_python/SolarMonth.py:next"]}
{"id": "C13", "title": "nextHour moves the clock by exactly n hours", "statement": "For every existing moment and integer n, nextHour(n) succeeds with an existing moment exactly n*3600 seconds later (earlier for n<0) and nextHour(a).nextHour(b)=nextHour(a+b).", "quantifier": "all existing moments, all integers", "why_tests_cant": "Unbounded n.", "anchors": ["lunar_python/Solar.py:nextHour"]}
{"id": "C14", "title": "subtractMinute measures elapsed minutes", "statement": "For existing moments, b.subtractMinute(a) is the signed number of minutes from a's minute to b's minute; b=a.nextHour(h) gives 60h.", "quantifier": "all pairs of existing moments", "why_tests_cant": "All pairs.", "anchors": ["lunar_python/Solar.py:subtractMinute"]}
{"id": "C15", "title": "SolarMonth / SolarSeason / SolarHalfYear / SolarYear navigation", "statement": "next(n) moves by exactly n months / quarters / half years / years, is a group action, and the getMonths / getIndex lists partition the year: 12 months in order, each month belongs to exactly the quarter and half year whose getMonths contains it.", "quantifier": "all years, months 1..12, all integers n", "why_tests_cant": "Unbounded n and year.", "anchors": ["lunar_python/SolarMonth.py:next", "lunar_python/SolarSeason.py", "lunar_python/SolarHalfYear.py", "lunar_python/SolarYear.py"]}
{"id": "C16", "title": "SolarMonth.getDays enumerates the month", "statement": "getDays is exactly the existing dates of that month, each once, in order, first to last (21 dates in 1582-10).", "quantifier": "all years and months", "why_tests_cant": "All years.", "anchors": ["lunar_python/SolarMonth.py:getDays"]}
{"id": "C17", "title": "A SolarWeek is seven consecutive days starting on the chosen weekday and containing its date", "statement": "For every existing date and start 0..6: getFirstDay has getWeek == start and is 0..6 days before the date; getDays is the 7 consecutive days from it and contains the date; getDaysInMonth / getFirstDayInMonth keep exactly those in the date's month; next(n,False) is the week 7n days later.", "quantifier": "all existing dates, start 0..6, all integers n", "why_tests_cant": "All dates, starts and n.", "anchors": ["lunar_python/SolarWeek.py:getFirstDay", "lunar_python/SolarWeek.py:getDays", "lunar_python/SolarWeek.py:next"]}
{"id": "C18", "title": "SolarMonth.getWeeks covers the month", "statement": "getWeeks(start) terminates, and its weeks are consecutive, start with the week containing the 1st, end with the week containing the last day, so every day of the month lies in exactly one listed week.", "quantifier": "all years, months, starts 0..6", "why_tests_cant": "A while loop whose termination and coverage must hold for all months.", "anchors": ["lunar_python/SolarMonth.py:getWeeks"]}
{"id": "C19", "title": "Week numbering within month and year", "statement": "getIndex (getIndexInYear) of a date equals 1 + the number of week starts strictly after the 1st of the month (January 1) up to the date, and getWeeksOfMonth equals getIndex of the last day of the month.", "quantifier": "all existing dates, starts 0..6", "why_tests_cant": "All dates.", "anchors": ["lunar_python/SolarWeek.py:getIndex", "lunar_python/SolarWeek.py:getIndexInYear", "lunar_python/util/SolarUtil.py:getWeeksOfMonth"]}
{"id": "C20", "title": "SolarWeek.next with separate months visits every month-clipped week once", "statement": "next(n, True) for n>0 (n<0) steps through the month-clipped weeks in order, one per step, never skipping or repeating one.", "quantifier": "all existing dates, starts, integers n", "why_tests_cant": "Stateful loop over unboundedly many steps.", "anchors": ["lunar_python/SolarWeek.py:next"]}
{"id": "C21", "title": "Zodiac signs are contiguous date ranges", "statement": "getXingZuo changes exactly on the 12 boundary days 1-20, 2-19, 3-21, 4-20, 5-21, 6-22, 7-23, 8-23, 9-23, 10-24, 11-23, 12-22, cycles through the 12 signs in order as days advance, and is defined for every date.", "quantifier": "all existing dates", "why_tests_cant": "All dates.", "anchors": ["lunar_python/Solar.py:getXingZuo"]}
{"id": "C22", "title": "Solar festivals fall on the documented days", "statement": "A weekday festival keyed m-k-w is reported on a date iff the date is the k-th weekday w of month m, a key m-0-w iff it is the last weekday w of month m; a fixed festival iff month and day match; each at most once a year.", "quantifier": "all existing dates", "why_tests_cant": "All dates.", "anchors": ["lunar_python/Solar.py:getFestivals", "lunar_python/util/SolarUtil.py:WEEK_FESTIVAL"]}
{"id": "C23", "title": "next(n, only_work_day=True) lands on the n-th working day", "statement": "For every holiday table, next(n,True) terminates, and for n>0 returns the n-th working day strictly after the date (n<0: before), where a day is working iff its holiday record says so, or it has none and is Monday..Friday; n=0 returns the date itself.", "quantifier": "all existing dates of four-digit years, all integers n, all well-formed holiday tables", "why_tests_cant": "Loop with data-dependent termination over unbounded n and user-supplied tables.", "anchors": ["lunar_python/Solar.py:next", "lunar_python/util/HolidayUtil.py:getHoliday"]}
{"id": "C24", "title": "getHoliday finds exactly the record of that day", "statement": "For every table made of 18-character records and every 4-digit-year date, getHoliday(y,m,d) returns the first record whose day field is that date and None iff there is none, never a misaligned hit.", "quantifier": "all record tables (any length), all dates with 4-digit years", "why_tests_cant": "Tables can be replaced by users through fix(); substring search can hit across record borders.", "anchors": ["lunar_python/util/HolidayUtil.py:__findForward", "lunar_python/util/HolidayUtil.py:__findHolidaysForward", "lunar_python/util/HolidayUtil.py:getHoliday"]}
{"id": "C25", "title": "getHolidays lists a year or month", "statement": "On a table sorted by day, getHolidays(y) and getHolidays(y,m) return exactly the records of that year / month in order.", "quantifier": "all sorted record tables, all 4-digit years and months", "why_tests_cant": "All tables.", "anchors": ["lunar_python/util/HolidayUtil.py:getHolidays"]}
{"id": "C26", "title": "getHolidaysByTarget lists the records of a festival", "statement": "On a table in which records of one target are contiguous, getHolidaysByTarget(y,m,d) returns exactly the records whose target is that day, in order.", "quantifier": "all such tables, all dates", "why_tests_cant": "All tables.", "anchors": ["lunar_python/util/HolidayUtil.py:__findBackward", "lunar_python/util/HolidayUtil.py:__findHolidaysBackward", "lunar_python/util/HolidayUtil.py:getHolidaysByTarget"]}
{"id": "C27", "title": "fix adds, replaces and removes days", "statement": "After fix(None, seg) with one well-formed 18-character segment for day d: if seg is not a removal getHoliday(d) is the holiday seg describes, if it is a removal getHoliday(d) is None, and every other day's lookup is unchanged; the table stays a sequence of 18-character records under any sequence of fix calls.", "quantifier": "all well-formed tables, all segments, all sequences of fix calls", "why_tests_cant": "Histories of updates over string-replace state are unbounded.", "anchors": ["lunar_python/util/HolidayUtil.py:fix"]}
{"id": "C28", "title": "Days added by fix appear in getHolidays", "statement": "After fix appends a new day of year y, getHolidays(y) contains it.", "quantifier": "all tables and segments", "why_tests_cant": "Depends on where the new record lands relative to other years.", "anchors": ["lunar_python/util/HolidayUtil.py:fix", "lunar_python/util/HolidayUtil.py:__findHolidaysForward"]}
{"id": "C29", "title": "JiaZi index is the Chinese-remainder bijection", "statement": "getJiaZiIndex maps the 60 stem-branch pairs one-to-one onto 0..59 with index mod 10 the stem and index mod 12 the branch; strings that are not one of the 60 give -1.", "quantifier": "all strings", "why_tests_cant": "All strings.", "anchors": ["lunar_python/util/LunarUtil.py:getJiaZiIndex", "lunar_python/util/LunarUtil.py:JIA_ZI", "lunar_python/util/LunarUtil.py:GAN", "lunar_python/util/LunarUtil.py:ZHI"]}
{"id": "C30", "title": "Xun and void branches", "statement": "For every one of the 60 pairs getXun is the pair opening its block of ten and getXunKong names exactly the two branches that do not occur in that block.", "quantifier": "all 60 pairs, hence every pillar of every date", "why_tests_cant": "Claim about every pillar any date can produce.", "anchors": ["lunar_python/util/LunarUtil.py:getXunIndex", "lunar_python/util/LunarUtil.py:getXun", "lunar_python/util/LunarUtil.py:getXunKong"]}
{"id": "C31", "title": "Day pillar advances by one every civil day", "statement": "The day pillar of the next civil day is the successor in the 60-cycle, through the 1582 gap and for every year of the range; equal pillars iff the distance is a multiple of 60.", "quantifier": "all existing dates", "why_tests_cant": "All dates.", "anchors": ["lunar_python/Lunar.py:__computeDay"]}
{"id": "C32", "title": "Late-night (23:00) convention", "statement": "getDayInGanZhiExact differs from getDayInGanZhi exactly for 23:00..23:59, where it is the next day's pillar; getDayInGanZhiExact2 always equals getDayInGanZhi.", "quantifier": "all moments", "why_tests_cant": "All moments.", "anchors": ["lunar_python/Lunar.py:__computeDay", "lunar_python/EightChar.py:getDay"]}
{"id": "C33", "title": "Double-hour index and hour pillar", "statement": "getTimeZhiIndex maps HH:MM to the double-hour (23:00-00:59 -> 0, 01:00-02:59 -> 1, ...); the hour pillar follows the five-rats rule from the sect-1 day stem, so it advances by one in the 60-cycle with each double-hour, continuously over midnight and all days.", "quantifier": "all moments", "why_tests_cant": "All moments; continuity across days.", "anchors": ["lunar_python/util/LunarUtil.py:getTimeZhiIndex", "lunar_python/Lunar.py:__computeTime", "lunar_python/LunarTime.py:__init__"]}
{"id": "C34", "title": "Year pillars under the three conventions", "statement": "With the solar-term table of the date's solar year (years 1..9998): the New-Year pillar is that of the lunar year number; the Li-Chun-day pillar is that of the solar year from the day of Li Chun on and of the previous year before it; the exact pillar switches at the Li Chun instant.", "quantifier": "all dates and all solar-term tables in which Li Chun lies in the date's solar year", "why_tests_cant": "All dates and tables.", "anchors": ["lunar_python/Lunar.py:__computeYear"]}
{"id": "C35", "title": "Month pillars switch at the 12 Jie and advance by one", "statement": "For every moment, the exact month pillar has index 12*Y+k (+constant) mod 60 where k counts the Jie passed in the table; so it changes exactly at Jie instants, by exactly one step, its branch is that of the Jie and its stem follows the five-tigers rule; the day-level pillar likewise at the Jie's day.", "quantifier": "all moments and all increasing solar-term tables with years 0..9999", "why_tests_cant": "All moments.", "anchors": ["lunar_python/Lunar.py:__computeMonth"]}
{"id": "C36", "title": "Every pillar is one of the 60 pairs", "statement": "Year, month, day, hour pillars in all conventions, TaiYuan, TaiXi, DaYun, LiuNian, XiaoYun and LiuYue pillars are always one of the 60 pairs, so the NaYin, Xun and XunKong lookups never fail.", "quantifier": "all Lunar objects", "why_tests_cant": "A KeyError for one date in ten thousand is invisible to sampling.", "anchors": ["lunar_python/Lunar.py:getYearNaYin", "lunar_python/EightChar.py", "lunar_python/eightchar"]}
{"id": "C37", "title": "Month list of a lunar year is contiguous", "statement": "For every year, LunarYear.getMonths has 15 months, consecutive months abut (first day + day count = next first day), the month numbers run 11,12,1,...,12,1 with at most one leap month which repeats the number before it with a minus sign.", "quantifier": "all years, for any astronomical input (new-moon / solar-term days)", "why_tests_cant": "Depends on 15 new moons and 26 terms for every year.", "anchors": ["lunar_python/LunarYear.py:compute"]}
{"id": "C38", "title": "Solar -> Lunar -> Solar round trip", "statement": "For every existing moment s of a year whose month list covers it, s.getLunar().getSolar() is s (same date and time).", "quantifier": "all existing moments, any contiguous almanac", "why_tests_cant": "Every day of every year.", "anchors": ["lunar_python/Lunar.py:fromSolar", "lunar_python/Lunar.py:__init__", "lunar_python/Solar.py:getLunar"]}
{"id": "C39", "title": "Lunar -> Solar -> Lunar round trip", "statement": "For every lunar date accepted by Lunar.fromYmdHms, converting to Solar and back gives the same lunar year, month (with leap sign), day and time.", "quantifier": "all lunar dates", "why_tests_cant": "Every lunar date incl. leap months and year ends.", "anchors": ["lunar_python/Lunar.py:fromSolar", "lunar_python/Lunar.py:__init__"]}
{"id": "C40", "title": "Lunar constructor validation", "statement": "Lunar.fromYmdHms raises exactly when the month does not exist in that lunar year, the day is < 1, or the day exceeds that month's day count, or the clock time is out of range.", "quantifier": "all integer tuples", "why_tests_cant": "All tuples.", "anchors": ["lunar_python/Lunar.py:__init__"]}
{"id": "C41", "title": "Lunar.next(n) agrees with the solar calendar", "statement": "lunar.next(n) is the lunar date of the n-th following civil day, next(a).next(b)=next(a+b), and consecutive lunar days either increment the day or start day 1 of the following month.", "quantifier": "all lunar dates and integers n", "why_tests_cant": "Unbounded n.", "anchors": ["lunar_python/Lunar.py:next"]}
{"id": "C42", "title": "LunarMonth.next walks the month sequence", "statement": "LunarMonth.next(n) returns the n-th following (preceding) month of the single chronological sequence of lunar months (leap months counted), next(a).next(b)=next(a+b), for any n.", "quantifier": "all months, all integers n, any consistent sequence of years", "why_tests_cant": "Loop over years with index search; unbounded n.", "anchors": ["lunar_python/LunarMonth.py:next"]}
{"id": "C43", "title": "fromYear cache is safe under every interleaving", "statement": "Whatever the interleaving of threads calling LunarYear.fromYear, every completed call returns the object for the year it asked for, and the critical section is exclusive.", "quantifier": "all numbers of threads, all interleavings, all call histories", "why_tests_cant": "Interleavings are not reachable by unit tests.", "anchors": ["lunar_python/LunarYear.py:fromYear"]}
{"id": "C44", "title": "fromYear cannot hang the library", "statement": "If one fromYear call fails with an exception, later fromYear calls still complete.", "quantifier": "all histories containing a failing call", "why_tests_cant": "Needs a crash point inside the critical section.", "anchors": ["lunar_python/LunarYear.py:fromYear"]}
{"id": "C45", "title": "Nearest solar term search", "statement": "getPrevJieQi / getNextJieQi (and the Jie / Qi variants, and by whole day) return the latest term at or before / the earliest term strictly after the moment among the table's 31 terms of that kind; prev and next of the same kind are adjacent.", "quantifier": "all moments and increasing tables", "why_tests_cant": "All moments.", "anchors": ["lunar_python/Lunar.py:__getNearJieQi", "lunar_python/Lunar.py:getNextJie", "lunar_python/Lunar.py:getPrevJie"]}
{"id": "C46", "title": "Shu Jiu (nine nines) counting", "statement": "getShuJiu is non-null exactly on the 81 days from the winter solstice day, and then names nine k day j with 9(k-1)+(j-1) the number of days since the solstice.", "quantifier": "all dates, all tables", "why_tests_cant": "All dates.", "anchors": ["lunar_python/Lunar.py:getShuJiu"]}
{"id": "C47", "title": "San Fu (dog days) follow the Geng-day rule", "statement": "Chu Fu starts on the third Geng day on or after the summer solstice and lasts 10 days, Zhong Fu starts on the fourth and Mo Fu on the first Geng day on or after Li Qiu for 10 days; day numbers count from 1 within each and other dates give None.", "quantifier": "all dates and all tables with Li Qiu 40..50 days after the solstice", "why_tests_cant": "All dates.", "anchors": ["lunar_python/Lunar.py:getFu"]}
{"id": "C48", "title": "Nine-star cycles", "statement": "The year star decreases by one (mod 9) each year for all years >= -2696 under either formula; the month star decreases by one each Jie month continuously over year ends; all star indices are in 0..8 so that every NineStar getter is defined.", "quantifier": "all years / months / dates", "why_tests_cant": "All years.", "anchors": ["lunar_python/Lunar.py:getYearNineStar", "lunar_python/Lunar.py:getMonthNineStar", "lunar_python/Lunar.py:getDayNineStar", "lunar_python/Lunar.py:getTimeNineStar", "lunar_python/LunarYear.py:getNineStar", "lunar_python/LunarMonth.py:getNineStar"]}
{"id": "C49", "title": "28 mansions follow the day count", "statement": "getXiu of the next civil day is the following mansion in the standard order of 28, for every date.", "quantifier": "all existing dates", "why_tests_cant": "All dates; relies on branch and weekday cycles staying in phase.", "anchors": ["lunar_python/Lunar.py:getXiu", "lunar_python/util/LunarUtil.py:XIU"]}
{"id": "C50", "title": "Yun start conversion is exact", "statement": "Start years/months/days/hours satisfy 360*y+30*m+d = 10*(double-hours between birth and the Jie) for sect 1 with 0<=m<12, 0<=d<30, and 4320*y+360*m+12*d+h/2 = minutes between them for sect 2, with the documented direction (yang-man/yin-woman forward).", "quantifier": "all birth moments with a preceding and following Jie", "why_tests_cant": "All moments.", "anchors": ["lunar_python/eightchar/Yun.py"]}
{"id": "C51", "title": "DaYun / LiuNian / XiaoYun / LiuYue sequences", "statement": "DaYun periods are contiguous decades of years and ages, their pillars step by +-1 from the month pillar, LiuNian pillar is the pillar of its calendar year, XiaoYun steps by +-1 per year of age continuously over DaYun borders, LiuYue follows five-tigers from the LiuNian stem.", "quantifier": "all charts, all indices", "why_tests_cant": "Unbounded indices.", "anchors": ["lunar_python/eightchar/DaYun.py", "lunar_python/eightchar/LiuNian.py", "lunar_python/eightchar/XiaoYun.py", "lunar_python/eightchar/LiuYue.py"]}
{"id": "C52", "title": "fromBaZi is sound", "statement": "Every Solar returned by Solar.fromBaZi(y,m,d,t,sect,base) has exactly the four given pillars under the chosen sect, has year >= base_year, and the list is ordered by time.", "quantifier": "all pillar strings, sects, base years, almanacs", "why_tests_cant": "All inputs.", "anchors": ["lunar_python/Solar.py:fromBaZi"]}
{"id": "C53", "title": "Buddhist and Taoist year numbers round-trip", "statement": "Tao.fromYmd(y,m,d) and Foto.fromYmd(y,m,d) report getYear y, getMonth m, getDay d.", "quantifier": "all valid lunar dates whose solar year is the lunar year or the next", "why_tests_cant": "All dates.", "anchors": ["lunar_python/Foto.py", "lunar_python/Tao.py"]}
{"id": "C54", "title": "Daily Yi/Ji, Ji Shen and Xiong Sha lookups are total", "statement": "For every month pillar / lunar month and day pillar (and day and hour pillar) the almanac lists decode without error and are non-empty lists of known terms, no term in both lists of a pair, and they are the lists of the one record of the table that has the pillars; texts that are no pillars give the list of the word for none.", "quantifier": "all combinations any date can produce", "why_tests_cant": "All combinations.", "anchors": ["lunar_python/util/LunarUtil.py:getDayYi", "lunar_python/util/LunarUtil.py:getDayJi", "lunar_python/util/LunarUtil.py:getDayJiShen", "lunar_python/util/LunarUtil.py:getDayXiongSha", "lunar_python/util/LunarUtil.py:getTimeYi", "lunar_python/util/LunarUtil.py:getTimeJi"]}
{"id": "C55", "title": "First-of-kind day counts of the year (几龙治水 etc.)", "statement": "getGengTian, getZhiShui, ... name the number n (1..12, stems 1..10) such that the n-th day of the first lunar month is the first with the stated branch (stem).", "quantifier": "all years whose first month exists", "why_tests_cant": "All years.", "anchors": ["lunar_python/LunarYear.py:__getZaoByGan", "lunar_python/LunarYear.py:__getZaoByZhi"]}
{"id": "C56", "title": "Ten gods are the five-phase relation", "statement": "SHI_SHEN of (day stem, other stem) is exactly the relation generated by element generation/overcoming and equal/unequal polarity; and hidden-stem ten-god lists are defined for every branch.", "quantifier": "all stem pairs, every chart", "why_tests_cant": "Claim for every chart.", "anchors": ["lunar_python/util/LunarUtil.py:SHI_SHEN", "lunar_python/util/LunarUtil.py:ZHI_HIDE_GAN", "lunar_python/EightChar.py:__getShiShenZhi"]}
{"id": "C57", "title": "Twelve life stages", "statement": "The DiShi of a branch from the day stem advances with the branch for yang stems and goes backward for yin stems, always within the twelve stages (index never out of range).", "quantifier": "all charts", "why_tests_cant": "All charts.", "anchors": ["lunar_python/EightChar.py:__getDiShi"]}
{"id": "C58", "title": "Ming Gong and Shen Gong are defined and valid pillars", "statement": "getMingGong / getShenGong return a stem-branch pair with loops terminating and indices in range for every chart, and their NaYin lookup succeeds.", "quantifier": "all charts", "why_tests_cant": "All charts.", "anchors": ["lunar_python/EightChar.py:getMingGong", "lunar_python/EightChar.py:getShenGong"]}
{"id": "C59", "title": "The weeks of a month make up the month", "statement": "Concatenating getDaysInMonth over SolarMonth.getWeeks(start) gives exactly the month's getDays.", "quantifier": "all months, all week starts", "why_tests_cant": "Month length and first weekday combinations interact with the loop's exit test.", "anchors": ["lunar_python/SolarMonth.py:getWeeks", "lunar_python/SolarWeek.py:getDaysInMonth"]}
{"id": "C60", "title": "LunarMonth pillar follows the month number", "statement": "LunarMonth.getGanZhi of month m of lunar year Y is the pillar of the five-tigers rule for that month number (month 1 has branch Yin), and the same month gives the same pillar whichever year's list it is read from.", "quantifier": "all years, all months", "why_tests_cant": "Whether a leap month precedes varies with every year's astronomy.", "anchors": ["lunar_python/LunarMonth.py:getGanZhi", "lunar_python/LunarMonth.py:getGanIndex", "lunar_python/LunarMonth.py:getZhiIndex", "lunar_python/LunarYear.py:compute"]}
{"id": "C61", "title": "The leap month has no principal term", "statement": "Outside the years with a hard-coded leap month: no principal solar term (Zhongqi, as computed by calcQi) falls on a day of a leap month, and the list of a year has a leap month exactly when thirteen months start between the two winter solstices.", "quantifier": "all years, any astronomical functions whose term days are in order", "why_tests_cant": "Depends on every year's astronomy; tests check a few leap years.", "anchors": ["lunar_python/LunarYear.py:compute", "lunar_python/LunarYear.py:getLeapMonth"]}
{"id": "C62", "title": "Solar term of the day", "statement": "getJieQi / getJie / getQi name the term (of that kind) falling on the civil day and give '' exactly when there is none; getCurrentJieQi / getCurrentJie / getCurrentQi give that term with its instant, or None.", "quantifier": "all Lunar objects with a table of 31 terms", "why_tests_cant": "The day of a term depends on the year's astronomy; existing tests compare names only.", "anchors": ["lunar_python/Lunar.py:getJie", "lunar_python/Lunar.py:getQi", "lunar_python/Lunar.py:getJieQi", "lunar_python/Lunar.py:getCurrentJieQi", "lunar_python/Lunar.py:getCurrentJie", "lunar_python/Lunar.py:getCurrentQi"]}
{"id": "C63", "title": "Pentads (hou) and phenology follow the days since the last term", "statement": "With the latest term by day and d days since it: getHou names the term and pentad min(d/5, 2)+1 of it, getWuHou is entry 3t + min(d/5, 2) of the cycle of 72, t being the number of the term from the winter solstice.", "quantifier": "all Lunar objects whose table has a term on or before the day", "why_tests_cant": "Intervals between terms vary from 14 to 16 days.", "anchors": ["lunar_python/Lunar.py:getHou", "lunar_python/Lunar.py:getWuHou"]}
{"id": "C64", "title": "NaYin and the five phases of a pillar", "statement": "The NaYin of a pillar ends with the phase given by the classical stem/branch number rule, two consecutive pillars of a couple (甲子乙丑, ...) share it and couples differ from their neighbours, and EightChar's WuXing strings are the phases of the stem and of the branch of the pillar.", "quantifier": "all 60 pillars, all four pillars of every chart", "why_tests_cant": "Claim for every chart; a wrong cell in a table of 60 is rarely sampled.", "anchors": ["lunar_python/util/LunarUtil.py:NAYIN", "lunar_python/util/LunarUtil.py:WU_XING_GAN", "lunar_python/util/LunarUtil.py:WU_XING_ZHI", "lunar_python/EightChar.py:getYearWuXing", "lunar_python/EightChar.py:getYearNaYin"]}
{"id": "C65", "title": "Cycles of sixty and periods of twenty years", "statement": "From 1864 on and backwards to -2696, cycles of sixty years are called upper, middle, lower in turn (getYuan), and periods of twenty years first to ninth in turn (getYun).", "quantifier": "all years from -2696 on", "why_tests_cant": "All years.", "anchors": ["lunar_python/LunarYear.py::getYuan", "lunar_python/LunarYear.py::getYun"]}
{"id": "C66", "title": "Days of fasting and mansions of the Buddhist calendar", "statement": "isDayZhaiSix holds exactly on the 8th, 14th, 15th, 23rd and the last two days of the lunar month; every such day and every 1st and 15th is one of isDayZhaiTen; isDayYangGong holds on the 13 days of the rule 'two days earlier each month'; isDayZhaiGuanYin is a fixed list outside leap months; getXiu advances by one of 27 mansions each day from the fixed mansion of the month's first day, and all tables know its result.", "quantifier": "all lunar dates, all month lengths 29/30, leap and other months", "why_tests_cant": "The last two days depend on the length of the month, which varies with every year's astronomy.", "anchors": ["lunar_python/Foto.py:isDayZhaiSix", "lunar_python/Foto.py:isDayZhaiTen", "lunar_python/Foto.py:isDayYangGong", "lunar_python/Foto.py:getXiu", "lunar_python/util/FotoUtil.py:getXiu"]}
{"id": "C67", "title": "isEveryMonth observances recur every month", "statement": "If a FotoFestival of some day has isEveryMonth() true, the same day of every other month lists an observance of that name.", "quantifier": "all days of all months", "why_tests_cant": "Relates all twelve months of a table of about 200 entries.", "anchors": ["lunar_python/Foto.py:getFestivals", "lunar_python/util/FotoUtil.py:FESTIVAL", "lunar_python/FotoFestival.py:isEveryMonth"]}
{"id": "C68", "title": "Days of the Taoist calendar", "statement": "isDaySanHui, isDaySanYuan, isDayWuLa are fixed lists of month and day outside leap months; isDayBaHui, isDayMingWu depend on the day pillar only; isDayAnWu on its branch and the lunar month; isDayTianShe on the day pillar and the season of the month pillar; isDayBaJie on the term of the day; getFestivals never raises and lists each of 八会 exactly on the days of its pillar, each of 八节 and the birthdays of 元始天尊 (冬至) and 灵宝天尊 (夏至) exactly on the days of their term, and otherwise the same festivals for every two dates of the same month and day.", "quantifier": "all lunar dates", "why_tests_cant": "Depends on pillars and terms of arbitrary dates.", "anchors": ["lunar_python/Tao.py:isDayBaJie", "lunar_python/Tao.py:isDayBaHui", "lunar_python/Tao.py:isDayTianShe", "lunar_python/Tao.py:getFestivals"]}
{"id": "C69", "title": "fromBaZi finds every moment again from its own pillars", "statement": "For a moment s of base_year or later (and not later than the present year), Solar.fromBaZi with the four pillars of s, under the chosen sect, returns a moment of the double-hour of s.", "quantifier": "all moments of the years from base_year on, both sects", "why_tests_cant": "Depends on how each moment lies relative to the astronomical instants of the Jie; the failing moments are less than an hour a month.", "anchors": ["lunar_python/Solar.py:fromBaZi"]}
{"id": "C70", "title": "Lunar dates in words", "statement": "toString of Lunar, Foto and Tao says the digits of the year, the name of the month (with 闰 for a leap month) and the name of the day; two lunar dates with the same string are the same date.", "quantifier": "all lunar dates, all years", "why_tests_cant": "Uniqueness of a text over all dates is not a matter of examples.", "anchors": ["lunar_python/Lunar.py:toString", "lunar_python/Lunar.py:getYearInChinese", "lunar_python/Lunar.py:getMonthInChinese", "lunar_python/Lunar.py:getDayInChinese", "lunar_python/Foto.py:toString", "lunar_python/Tao.py:toString"]}
{"id": "C71", "title": "Clash and evil of day and hour", "statement": "What clashes with the day (hour) is the pillar six before: the opposite branch with its animal, the stem overcome with the same polarity; the Tie stem is the one overcome with the other polarity; Sha is the direction of the three-harmony group of the branch.", "quantifier": "all lunar dates", "why_tests_cant": "Claim for all sixty days and all hours of every date.", "anchors": ["lunar_python/Lunar.py:getDayChong", "lunar_python/Lunar.py:getDayChongGan", "lunar_python/Lunar.py:getDayChongGanTie", "lunar_python/Lunar.py:getDayChongShengXiao", "lunar_python/Lunar.py:getDayChongDesc", "lunar_python/Lunar.py:getDaySha", "lunar_python/Lunar.py:getTimeChong", "lunar_python/Lunar.py:getTimeSha"]}
{"id": "C72", "title": "Twelve officers", "statement": "getZhiXing is the officer counted from the branch of the month to that of the day (建 when they agree); from one day to the next it goes on by one, and is repeated on the day where a new solar month begins.", "quantifier": "all lunar dates and their successors", "why_tests_cant": "Depends on where the Jie of every month falls.", "anchors": ["lunar_python/Lunar.py:getZhiXing"]}
{"id": "C73", "title": "Twelve spirits of day and hour", "statement": "getDayTianShen and getTimeTianShen count the twelve spirits from the branch where 青龙 begins for the month (the day); exactly six of them are on the yellow road and lucky.", "quantifier": "all lunar dates", "why_tests_cant": "Claim for all days of all months, all hours of all days.", "anchors": ["lunar_python/Lunar.py:getDayTianShen", "lunar_python/Lunar.py:getTimeTianShen", "lunar_python/Lunar.py:getDayTianShenType", "lunar_python/Lunar.py:getDayTianShenLuck", "lunar_python/Lunar.py:getTimeTianShenType", "lunar_python/Lunar.py:getTimeTianShenLuck"]}
{"id": "C74", "title": "Directions of the gods of joy, wealth, fortune and of the nobles", "statement": "The positions of day and hour follow the stem as the rhymes say, for both schools of 福神, and each description names the direction of the trigram.", "quantifier": "all lunar dates, all schools", "why_tests_cant": "Claim for every date.", "anchors": ["lunar_python/Lunar.py:getDayPositionXi", "lunar_python/Lunar.py:getDayPositionYangGui", "lunar_python/Lunar.py:getDayPositionYinGui", "lunar_python/Lunar.py:getDayPositionFu", "lunar_python/Lunar.py:getDayPositionCai", "lunar_python/Lunar.py:getTimePositionXi", "lunar_python/Lunar.py:getTimePositionFu"]}
{"id": "C75", "title": "Place of the great year god", "statement": "getYearPositionTaiSui, getMonthPositionTaiSui and getDayPositionTaiSui give the place by the branch of the year, the stem of the month, and the rule of the sixty days (five of each dozen at a fixed place, the rest at the place of the year), for each school.", "quantifier": "all lunar dates, all schools", "why_tests_cant": "Three days of the sixty are wrong in the code.", "anchors": ["lunar_python/Lunar.py:getYearPositionTaiSui", "lunar_python/Lunar.py:getMonthPositionTaiSui", "lunar_python/Lunar.py:getDayPositionTaiSui"]}
{"id": "C76", "title": "Six days, phase of the moon, season and salary", "statement": "getLiuYao goes on by one every day from the start set by the month; getYueXiang tells new moon, quarters, full and dark moon on their days only; getSeason groups the months by three; getDayLu names the branch of the salary of the day stem and the stems having theirs at the day branch.", "quantifier": "all lunar dates", "why_tests_cant": "Claim for every date.", "anchors": ["lunar_python/Lunar.py:getLiuYao", "lunar_python/Lunar.py:getYueXiang", "lunar_python/Lunar.py:getSeason", "lunar_python/Lunar.py:getDayLu"]}
{"id": "C77", "title": "Place of the womb god", "statement": "getDayPositionTai is made of the thing of the stem, the thing of the branch and a round through the directions; getMonthPositionTai is told in all twelve months and empty exactly in leap months.", "quantifier": "all lunar dates", "why_tests_cant": "Claim for all sixty days of every date.", "anchors": ["lunar_python/Lunar.py:getDayPositionTai", "lunar_python/Lunar.py:getMonthPositionTai"]}
{"id": "C78", "title": "Festivals of the lunar calendar", "statement": "getFestivals gives the festival of month and day (none in leap months) and 除夕 exactly on the day before the lunar year changes; getOtherFestivals adds 寒食节 on the day before Qing Ming, 春社 and 秋社 on the fifth 戊 day from Li Chun and Li Qiu.", "quantifier": "all lunar dates in years whose calendar is an Almanac", "why_tests_cant": "Lengths of the twelfth month, leap twelfth months and the day pillars at the terms vary with the astronomy of every year.", "anchors": ["lunar_python/Lunar.py:getFestivals", "lunar_python/Lunar.py:getOtherFestivals"]}
{"id": "C79", "title": "Double-hours", "statement": "LunarTime.fromYmdHms succeeds exactly when Lunar.fromYmdHms does, and its getters give what the getTime... getters of that Lunar give, including getNineStar; a time of day lies between getMinHm and getMaxHm exactly when it is in the same double-hour; getTimes gives thirteen double-hours with consecutive pillars covering every minute of the day once.", "quantifier": "all lunar moments", "why_tests_cant": "Agreement of two parallel sets of getters over all moments.", "anchors": ["lunar_python/LunarTime.py:__init__", "lunar_python/LunarTime.py:getNineStar", "lunar_python/LunarTime.py:getMinHm", "lunar_python/LunarTime.py:getMaxHm", "lunar_python/Lunar.py:getTime", "lunar_python/Lunar.py:getTimes"]}
{"id": "C80", "title": "The long text of a lunar date can always be made", "statement": "toFullString of a lunar date never raises and begins with toString; the sayings of Peng Zu begin with the stem and branch of the day, the animals are those of the branches.", "quantifier": "all lunar dates", "why_tests_cant": "Some thirty lookups, each of which must succeed on every date.", "anchors": ["lunar_python/Lunar.py:toFullString", "lunar_python/Lunar.py:getPengZuGan", "lunar_python/Lunar.py:getPengZuZhi", "lunar_python/Lunar.py:getYearShengXiao", "lunar_python/Lunar.py:getMonthShengXiao"]}
{"id": "C81", "title": "Decades and void branches of the pillars of a date", "statement": "Each get...Xun getter of Lunar is the pillar opening the decade of the pillar of the same convention, and get...XunKong names exactly the two branches not occurring in that decade.", "quantifier": "all lunar dates, nine pillars", "why_tests_cant": "Claim for every date and convention.", "anchors": ["lunar_python/Lunar.py:getYearXun", "lunar_python/Lunar.py:getMonthXun", "lunar_python/Lunar.py:getDayXun", "lunar_python/Lunar.py:getTimeXun", "lunar_python/Lunar.py:getDayXunKongExact2"]}
{"id": "C82", "title": "The lists of the chart on Lunar", "statement": "getBaZi, getBaZiWuXing, getBaZiNaYin, getBaZiShiShenGan, getBaZiShiShenZhi list, in the order year, month, day, hour, the pillars at the instants of the Jie, their phases, NaYin, ten gods of the stems (日主 for the day) and ten gods of the principal hidden stems.", "quantifier": "all lunar dates", "why_tests_cant": "Claim for every date.", "anchors": ["lunar_python/Lunar.py:getBaZi", "lunar_python/Lunar.py:getBaZiWuXing", "lunar_python/Lunar.py:getBaZiNaYin", "lunar_python/Lunar.py:getBaZiShiShenGan", "lunar_python/Lunar.py:getBaZiShiShenZhi"]}
{"id": "C83", "title": "Attributes of the mansion of the day", "statement": "getGong, getShou, getAnimal, getXiuLuck follow the place of the mansion in the order of the 28; getZheng is the luminary of the day of the week; the song begins with the name of the mansion.", "quantifier": "all lunar dates", "why_tests_cant": "The luminary agrees with the weekday on all dates only because two cycles are in step.", "anchors": ["lunar_python/Lunar.py:getXiu", "lunar_python/Lunar.py:getZheng", "lunar_python/Lunar.py:getAnimal", "lunar_python/Lunar.py:getGong", "lunar_python/Lunar.py:getShou", "lunar_python/Lunar.py:getXiuLuck", "lunar_python/Lunar.py:getXiuSong"]}
{"id": "C84", "title": "The calendar of the library itself is consistent", "statement": "With math.sin and math.cos accurate to 2^-50, the lists of months and of solar terms that LunarYear computes from the series of ShouXingUtil agree from year to year; so Solar.getLunar and Lunar.getSolar are inverse to each other, Lunar.next agrees with the solar calendar, and Solar.fromBaZi never fails and finds only moments with the pillars asked for.", "quantifier": "all moments of the years 1584..6890", "why_tests_cant": "Rests on thousands of terms of series evaluated in floating point for each of 60000 months; a wrong day in one of them breaks conversions near it.", "anchors": ["lunar_python/util/ShouXingUtil.py:calcShuo", "lunar_python/util/ShouXingUtil.py:calcQi", "lunar_python/util/ShouXingUtil.py:qiAccurate2", "lunar_python/LunarYear.py:compute", "lunar_python/Lunar.py:fromYmdHms", "lunar_python/Lunar.py:fromSolar", "lunar_python/Solar.py:fromBaZi"]}
{"id": "C85", "title": "Leap months follow the national standard", "statement": "The list of LunarYear Y begins with the eleventh month of Y-1, which holds the winter solstice; the next winter solstice is in the month twelve or thirteen places later, the eleventh of Y, with which the list of Y+1 begins; if there are thirteen, exactly the first of them without a principal term is a leap month, otherwise none is.", "quantifier": "all lunar years 1584..9997, with the solar terms and new moons the library computes (math.sin and math.cos accurate to 2^-50)", "why_tests_cant": "The program finds leap months by a loop and by two hard-coded tables of years; that both follow the one rule depends on the astronomy of every year.", "anchors": ["lunar_python/LunarYear.py:compute", "lunar_python/LunarYear.py:getMonths", "lunar_python/LunarYear.py:getLeapMonth", "lunar_python/LunarMonth.py:isLeap", "lunar_python/util/ShouXingUtil.py:calcShuo", "lunar_python/util/ShouXingUtil.py:calcQi"]}
{"id": "C86", "title": "Lunar months have 29 or 30 days", "statement": "Every month of the lists of LunarYear has 29 or 30 days, so Lunar.fromYmd accepts day 29 of every existing month and never day 31; the lunar date of every day has a day from 1 to the length of its month; the six fasting days end with the last two of the month and 除夕 is exactly the last day of the lunar year.", "quantifier": "all lunar years 1584..5000, with the new moons the library computes (math.sin and math.cos accurate to 2^-50)", "why_tests_cant": "The length is the difference of two days each found by Newton steps on truncated series, one of two kinds depending on how near midnight the new moon is; an error of minutes in one of 42000 months would make a month of 28 or 31 days.", "anchors": ["lunar_python/LunarYear.py:compute", "lunar_python/LunarMonth.py:getDayCount", "lunar_python/LunarMonth.py:fromYm", "lunar_python/Lunar.py:fromYmdHms", "lunar_python/Lunar.py:getFestivals", "lunar_python/Foto.py:isDayZhaiSix", "lunar_python/util/ShouXingUtil.py:calcShuo", "lunar_python/util/ShouXingUtil.py:shuoHigh"]}
{"id": "C87", "title": "Seasonal days in the library's own calendar", "statement": "For the lunar date of any moment: the j-th day of the k-th nine of winter is 9(k-1)+(j-1) days after a winter solstice of its table and there are no others; the three decades of summer start on the third and fourth 庚 day from the summer solstice and the first from Li Qiu, with a middle of 10 or 20 days; the nine star of the day runs forward and backward between the solstices of its own year; 寒食节 is the day before Qing Ming and 春社, 秋社 the fifth 戊 days from Li Chun and Li Qiu.", "quantifier": "all moments of the years 1585..6889 (day star 1586..6889), nothing supposed about the sky (math.sin and math.cos accurate to 2^-50)", "why_tests_cant": "Needs the two solstices of every year at least 81 days apart, Li Qiu 42 to 49 days after the summer solstice, the terms in their own years: facts about the computed sky for 5300 years.", "anchors": ["lunar_python/Lunar.py:getShuJiu", "lunar_python/Lunar.py:getFu", "lunar_python/Lunar.py:getDayNineStar", "lunar_python/Lunar.py:getOtherFestivals", "lunar_python/LunarYear.py:compute", "lunar_python/util/ShouXingUtil.py:qiAccurate2"]}
{"id": "C88", "title": "Descriptions, neighbouring terms and luck never fail", "statement": "For the lunar date of any moment: toFullString returns a text beginning with the date in words; getPrevJie, getNextJie, getPrevQi, getNextQi, getPrevJieQi, getNextJieQi return the last term at or before the moment and the first after it, never None; EightChar.getYun, Yun.getStartSolar, getDaYun and the pillar of every LiuNian exist.", "quantifier": "all moments of the years 1585..6889 (toFullString to 5000), both genders, both schools, all numbers of decades", "why_tests_cant": "Each of these fails with an exception on a moment for which the table of terms is too short; no list of examples excludes such a moment.", "anchors": ["lunar_python/Lunar.py:toFullString", "lunar_python/Lunar.py:getPrevJie", "lunar_python/Lunar.py:getNextJie", "lunar_python/Lunar.py:getPrevQi", "lunar_python/Lunar.py:getNextQi", "lunar_python/Lunar.py:getPrevJieQi", "lunar_python/Lunar.py:getNextJieQi", "lunar_python/eightchar/Yun.py:Yun.getStartSolar", "lunar_python/eightchar/Yun.py:Yun.getDaYun", "lunar_python/eightchar/LiuNian.py:LiuNian.getGanZhi"]}
{"id": "C89", "title": "Steps by months and sayings of the year", "statement": "LunarMonth.next(1) is the month beginning on the day after the last of this one; next(n) followed by next(-n) is the month itself, and next(n) is later exactly when n > 0; the fourteen sayings of a lunar year (鼠偷粮, 龙治水, ...) count to the first day of the year's first month with the branch or stem they name.", "quantifier": "all lunar months of the years 1585..6888 and all steps that stay within, all lunar years 1585..6889", "why_tests_cant": "The loop of next crosses years with 12 or 13 months and needs leap months and lists of consecutive years to agree.", "anchors": ["lunar_python/LunarMonth.py:next", "lunar_python/LunarMonth.py:fromYm", "lunar_python/LunarYear.py:getTouLiang", "lunar_python/LunarYear.py:getZhiShui", "lunar_python/LunarYear.py:getDeJin", "lunar_python/LunarYear.py:getRenBing"]}
{"id": "C90", "title": "Distances of solar terms and the start of luck", "statement": "Neighbouring solar terms in the table of a lunar date are 14 to 17 days apart (14 to 16 from 1962 to 2730), neighbouring Jie and neighbouring Qi 29 to 32; so EightChar.getYun gives a start year from 0 to 10, Yun.getStartSolar lies in the year of birth or one of the eleven after it, and the first DaYun of luck begins at age 12 or earlier.", "quantifier": "all moments of the years 1585..6889, both genders, both schools (math.sin and math.cos accurate to 2^-50)", "why_tests_cant": "Depends on the computed instants of 127000 solar terms; a single misplaced one would give an absurd start of luck for a month of births.", "anchors": ["lunar_python/LunarYear.py:compute", "lunar_python/Lunar.py:getJieQiTable", "lunar_python/Lunar.py:getPrevJie", "lunar_python/Lunar.py:getNextJie", "lunar_python/eightchar/Yun.py:Yun.getStartYear", "lunar_python/eightchar/Yun.py:Yun.getStartSolar", "lunar_python/eightchar/Yun.py:Yun.getDaYun", "lunar_python/util/ShouXingUtil.py:qiAccurate2"]}
{"id": "C91", "title": "Dates of the solar terms", "statement": "Every solar month has exactly two solar terms, a Jie on one of its days 1 to 10 and a Qi on one of its days 16 to 25, and getJie, getQi, getJieQi name them on these days and on no others; in 1961..2099 each term falls on one of two to four listed days (清明 on April 4 or 5, 冬至 on December 21 or 22, 立春 on February 3 to 5).", "quantifier": "all solar months of the years 1585..6889, all moments of a day (math.sin and math.cos accurate to 2^-50)", "why_tests_cant": "A statement about every year; the terms drift against the solar calendar with its leap days.", "anchors": ["lunar_python/Lunar.py:getJieQiTable", "lunar_python/Lunar.py:getJie", "lunar_python/Lunar.py:getQi", "lunar_python/Lunar.py:getJieQi", "lunar_python/LunarYear.py:compute", "lunar_python/util/ShouXingUtil.py:qiAccurate2"]}
{"id": "C92", "title": "The days on which the lunar year begins", "statement": "The first day of the first lunar month falls on one of the days from January 19 to February 21 of the solar year with the same number (not before January 20 up to 2731, not after February 20 from 1961 to 2099), and Lunar.fromYmd(Y, 1, 1) is such a day for every Y; so the lunar year of a day is that of the solar year from February 21 on and the year before it before January 19.", "quantifier": "all moments of the years 1585..4999 (math.sin and math.cos accurate to 2^-50)", "why_tests_cant": "Depends on the new moons and solar terms of every winter and on the rule for leap months with its hard-coded exceptions; a single wrong leap month moves a New Year by thirty days.", "anchors": ["lunar_python/Lunar.py:fromSolar", "lunar_python/Lunar.py:fromYmd", "lunar_python/LunarYear.py:compute", "lunar_python/util/ShouXingUtil.py:calcShuo", "lunar_python/util/ShouXingUtil.py:calcQi"]}
{"id": "C93", "title": "The length of lunar years", "statement": "LunarYear.getDayCount is 353, 354 or 355 for a year without leap month and 383, 384 or 385 for one with a leap month, and that many days after the first day of the first lunar month comes the first day of the first month of the next lunar year.", "quantifier": "all lunar years 1585..4999, all moments of a New Year's day 1585..4998 (math.sin and math.cos accurate to 2^-50)", "why_tests_cant": "Months of 29 or 30 days alone would allow 348 to 360 days; that short and long months alternate closely enough depends on the new moons of every year.", "anchors": ["lunar_python/LunarYear.py:getDayCount", "lunar_python/LunarYear.py:getMonthsInYear", "lunar_python/LunarYear.py:getLeapMonth", "lunar_python/LunarYear.py:compute", "lunar_python/Solar.py:next", "lunar_python/util/ShouXingUtil.py:calcShuo", "lunar_python/util/ShouXingUtil.py:shuoHigh"]}
{"id": "C94", "title": "Festivals and full text of a solar date", "statement": "Solar.getFestivals reports a name exactly on the dates of that festival, be it a day of the year or the k-th or last weekday of a month; Solar.getOtherFestivals gives each entry of its table on one day of the year, which exists in every year, and on no other; Solar.toFullString never fails, consists of moment, leap year remark, weekday, festivals and sign of the zodiac, and tells any two moments apart.", "quantifier": "all valid moments of the years -4712..9999 and all names", "why_tests_cant": "Festivals on weekdays depend on the calendar of every year, the last weekday of a month on its length, also in October 1582; that no two moments share a text is a statement about pairs.", "anchors": ["lunar_python/Solar.py:getFestivals", "lunar_python/Solar.py:getOtherFestivals", "lunar_python/Solar.py:getXingZuo", "lunar_python/Solar.py:getWeekInChinese", "lunar_python/Solar.py:toFullString", "lunar_python/util/SolarUtil.py:WEEK_FESTIVAL", "lunar_python/util/SolarUtil.py:FESTIVAL", "lunar_python/util/SolarUtil.py:OTHER_FESTIVAL"]}
{"id": "C95", "title": "Texts of periods", "statement": "toString and toFullString of two years, months, half years, quarters or weeks agree exactly when the periods are the same: the same months for half years and quarters, the same week of the same month for weeks; LunarMonth.toString agrees exactly when year, month (with leap sign) and length agree.", "quantifier": "all years and months, all weeks of valid dates of the years -4712..9999 outside October 1582 with any first day of the week", "why_tests_cant": "A statement about all pairs of periods; numbers are written without padding.", "anchors": ["lunar_python/SolarYear.py:SolarYear.toString", "lunar_python/SolarMonth.py:SolarMonth.toString", "lunar_python/SolarHalfYear.py:SolarHalfYear.toFullString", "lunar_python/SolarSeason.py:SolarSeason.toString", "lunar_python/SolarWeek.py:SolarWeek.toString", "lunar_python/SolarWeek.py:SolarWeek.toFullString", "lunar_python/LunarMonth.py:toString"]}
{"id": "C96", "title": "Directions of the gods for lunar years and months", "statement": "The directions of joy, wealth, fortune (both schools) and the two nobles of a lunar year or month follow the stem of its pillar, their descriptions name the direction, the great year god of a lunar year follows its branch and agrees with that of every date in it; that of a lunar month other than the 2nd, 6th, 10th is that of the month's own pillar, leap or not; LunarYear.next(n) is the year n later.", "quantifier": "all lunar years, all lunar months, all lunar dates whose indices are those of their moment", "why_tests_cant": "All years and all sixty pillars; the code looks stems up in six tables with an offset and the month stem is computed from the year.", "anchors": ["lunar_python/LunarYear.py:getPositionXi", "lunar_python/LunarYear.py:getPositionFu", "lunar_python/LunarYear.py:getPositionTaiSui", "lunar_python/LunarYear.py:next", "lunar_python/LunarMonth.py:getPositionXi", "lunar_python/LunarMonth.py:getPositionYinGui", "lunar_python/LunarMonth.py:getPositionTaiSui", "lunar_python/Lunar.py:getYearPositionTaiSui"]}
{"id": "C97", "title": "Lunar months and month pillars", "statement": "The month pillar of a date (by days and by instants) is that of its lunar month or of a neighbouring one: number 12(Y-4)+1+m plus -1, 0 or 1; in a leap month never the one before, on the first day of a month never the one after; and LunarMonth.getPositionTaiSui is that of the month's own pillar for every lunar month.", "quantifier": "all moments of the years 1587..4998, all lunar months of the years 1588..4997 (math.sin and math.cos accurate to 2^-50)", "why_tests_cant": "Jie and new moons are computed separately; that they never drift apart by more than a month depends on every leap month of 3400 years.", "anchors": ["lunar_python/Lunar.py:getMonthInGanZhi", "lunar_python/Lunar.py:getMonthInGanZhiExact", "lunar_python/Lunar.py:fromSolar", "lunar_python/LunarMonth.py:getPositionTaiSui", "lunar_python/LunarYear.py:compute"]}
{"id": "C98", "title": "Pillars of all periods of a life", "statement": "For every birth, sex and school: the i-th ten-year period (i up to 60) stands i steps from the month pillar, the small luck at age a stands a steps from the hour pillar, both in the direction of the chart; every year of a period has the pillar of the calendar year; its twelve months are named from 正 to 腊 and have the pillars 12(Y-4)+1+m of the months of that year; and getXun and getXunKong of each of these name the opening pillar of its block of ten and the two branches missing there.", "quantifier": "all births 1585..6889 (math.sin and math.cos accurate to 2^-50), any gender, school, number of periods and number of years", "why_tests_cant": "Unbounded numbers of periods and years; the pillars of the years are found through the lunar date of 立春, the ages through the start of luck.", "anchors": ["lunar_python/eightchar/DaYun.py:DaYun.getGanZhi", "lunar_python/eightchar/DaYun.py:DaYun.getXun", "lunar_python/eightchar/LiuNian.py:LiuNian.getGanZhi", "lunar_python/eightchar/LiuNian.py:LiuNian.getXunKong", "lunar_python/eightchar/XiaoYun.py:XiaoYun.getXun", "lunar_python/eightchar/LiuYue.py:LiuYue.getMonthInChinese", "lunar_python/eightchar/LiuYue.py:LiuYue.getXunKong"]}
{"id": "C99", "title": "Stems, branches and texts of charts", "statement": "The stem and the branch of each pillar of a date, in each of its conventions, and of a chart are the two characters of the pillar; EightChar.toString never fails and two charts have the same text exactly when their four pillars agree; setSect changes the text exactly from 23:00 on, when convention 1 takes the day pillar after that of convention 2; LunarUtil.convertTime gives the branch of every time of day; Lunar.getTime exists, belongs to that very date and says of the hour what the date says.", "quantifier": "all lunar dates whose indices are those of their moment, for the library's own calendar all moments of the years 1586..6888; all times of day", "why_tests_cant": "All pairs of charts and all conventions; the hour 23 belongs to two days.", "anchors": ["lunar_python/Lunar.py:getDayGanExact", "lunar_python/Lunar.py:getTimeZhi", "lunar_python/Lunar.py:getTime", "lunar_python/EightChar.py:toString", "lunar_python/EightChar.py:setSect", "lunar_python/EightChar.py:getDay", "lunar_python/util/LunarUtil.py:convertTime"]}
{"id": "C100", "title": "Anniversaries and texts of Buddhist and Taoist dates", "statement": "Foto.getOtherFestivals gives each anniversary on its month and day, on no other, never in a leap month, and every year; Foto.toFullString is the date in words followed by its observances, Tao.toFullString the year, pillars, month, day and double-hour, and neither text is shared by two dates; Tao.fromYmd is the date at midnight; FotoFestival.toFullString begins with the name, TaoFestival.toFullString tells festivals apart.", "quantifier": "all Buddhist and Taoist dates; every year 1586..5000 of the library's own calendar", "why_tests_cant": "All dates of all years; whether a month has a thirtieth day depends on the moon.", "anchors": ["lunar_python/Foto.py:Foto.getOtherFestivals", "lunar_python/Foto.py:Foto.toFullString", "lunar_python/Tao.py:Tao.toFullString", "lunar_python/Tao.py:Tao.fromYmd", "lunar_python/FotoFestival.py:FotoFestival.toFullString", "lunar_python/TaoFestival.py:TaoFestival.toFullString"]}
{"id": "C101", "title": "The holiday records built into the library", "statement": "With the data the library comes with: getHoliday never fails; every record has one of the nine names and a festival day between 11 days before and 8 days after it which is itself a day off; festivals fixed in the civil calendar are on their dates; days marked as working days are Saturdays or Sundays; getHolidays of a year or month and getHolidaysByTarget list exactly the days getHoliday knows, in order; Solar.next(n, True) arrives at the n-th working day, at most 11n days away; a first call of fix replaces or removes the record of one day and leaves all others.", "quantifier": "all days, months and years 1000..9999, all festival days, all start days and all n, all single corrections", "why_tests_cant": "821 records searched as one text at arbitrary positions: whether a lookup, a list or a correction meets another record by accident is a question about all queries.", "anchors": ["lunar_python/util/HolidayUtil.py:getHoliday", "lunar_python/util/HolidayUtil.py:getHolidays", "lunar_python/util/HolidayUtil.py:getHolidaysByTarget", "lunar_python/util/HolidayUtil.py:fix", "lunar_python/Solar.py:next"]}
{"id": "C102", "title": "Texts of holidays, seasonal days and lunar years", "statement": "Holiday.toString tells holidays apart and, with the built-in data, days; the texts of the days of the nine nines and of the dog days agree exactly for the same day of the same period, and no text of one is one of the other; LunarYear.toString and toFullString agree exactly for the same year.", "quantifier": "all holidays whose day and name have no space, all lunar dates, all lunar years", "why_tests_cant": "A statement about all pairs.", "anchors": ["lunar_python/Holiday.py:Holiday.toString", "lunar_python/ShuJiu.py:ShuJiu.toFullString", "lunar_python/Fu.py:Fu.toFullString", "lunar_python/Lunar.py:getShuJiu", "lunar_python/Lunar.py:getFu", "lunar_python/LunarYear.py:toString", "lunar_python/LunarYear.py:toFullString"]}
{"id": "C103", "title": "Corrections of the built-in holidays", "statement": "After any calls of HolidayUtil.fix on the built-in data, each with any number of 18-character corrections of different days, no call has failed and getHoliday of every day gives what the latest correction of that day says (name, working day or not, festival day; nothing after a removal), and what it gave before for days never corrected; in particular a day put in and taken out again is unknown.", "quantifier": "all sequences of calls and corrections of days of the years 2024..2099 ending in 4..9, any name, festival in the same or a neighbouring year; all days asked for 1000..9999", "why_tests_cant": "Corrections edit one long string by search and replace; whether a later correction meets text of other records depends on the whole history of calls.", "anchors": ["lunar_python/util/HolidayUtil.py:fix", "lunar_python/util/HolidayUtil.py:getHoliday"]}
{"id": "C104", "title": "Pillars by the civil date and the cycles of the days across a Jie", "statement": "Every month k of a year Y has one day among its first ten which getJie names; from it on getMonthInGanZhi is pillar 12(Y-4)+k, before it 12(Y-4)+k-1, by instants only that day itself is open, and getYearInGanZhiByLiChun changes on that day of February; so from the eleventh on the month pillar follows from year and month alone. From one day to the next the month pillar goes on by one exactly on the day of a Jie; the officer (getZhiXing) goes on by one but is repeated on the day of a Jie; the spirit (getDayTianShen) goes on by one but goes back by one on the day of a Jie.", "quantifier": "all moments and all pairs of successive days of the years 1585..6889 (math.sin and math.cos accurate to 2^-50)", "why_tests_cant": "Five thousand years of days; where the month changes depends on the ephemeris.", "anchors": ["lunar_python/Lunar.py:getMonthInGanZhi", "lunar_python/Lunar.py:getMonthInGanZhiExact", "lunar_python/Lunar.py:getYearInGanZhiByLiChun", "lunar_python/Lunar.py:getJie", "lunar_python/Lunar.py:getZhiXing", "lunar_python/Lunar.py:getDayTianShen"]}
{"id": "C105", "title": "Walking from solar term to solar term", "statement": "Two moments of one civil year have the same getJieQiTable, and its last seven entries are the first seven of the next year's. All moments between two neighbouring terms have the same getPrevJieQi and getNextJieQi (likewise Jie and Qi), also across New Year where they are read from two tables. The moment of the next term has that term as the previous one and the following name as the next; 24 steps (12 for Jie and for Qi) lead to the term of the same name in the same month of the next year.", "quantifier": "all moments and pairs of moments of the years 1585..6889 (the walk over a year from 1585..6885), all three kinds of terms (math.sin and math.cos accurate to 2^-50)", "why_tests_cant": "Statements about all pairs of moments and about chains of calls; each year computes its own table from its own starting point.", "anchors": ["lunar_python/Lunar.py:getJieQiTable", "lunar_python/Lunar.py:getPrevJieQi", "lunar_python/Lunar.py:getNextJieQi", "lunar_python/Lunar.py:getPrevJie", "lunar_python/Lunar.py:getNextJie", "lunar_python/Lunar.py:getPrevQi", "lunar_python/Lunar.py:getNextQi"]}
{"id": "C106", "title": "Nine stars by the civil date", "statement": "Every month k of a year Y has one day among its first ten, named by getJie, from which getMonthNineStar is star -(12(Y-4)+k) mod 9, before it one more: the month stars go back by one at every Jie, for ever. getYearNineStar is (1-Y) mod 9 from that day of February on, before it that of the year before. getTimeNineStar goes up by the double-hours until the day of 夏至 and from the day of 冬至 on, and down between them.", "quantifier": "all moments of the years 1585..6889 (math.sin and math.cos accurate to 2^-50)", "why_tests_cant": "Cycles of nine against months, years and sixty double-hours over five thousand years; where they turn depends on the ephemeris.", "anchors": ["lunar_python/Lunar.py:getMonthNineStar", "lunar_python/Lunar.py:getYearNineStar", "lunar_python/Lunar.py:getTimeNineStar", "lunar_python/Lunar.py:getJie", "lunar_python/Lunar.py:getQi"]}
{"id": "C107", "title": "A chart names a double-hour within a cycle of sixty years", "statement": "In the library's own calendar, two moments of the years 1585..6890 whose years differ by less than 59 and whose four pillars agree (year and month pillar by the exact moment of the Jie, day pillar with either convention for the hour before midnight, hour pillar) lie in the same double-hour. Hence any two moments in one answer of Solar.fromBaZi are at least 59 years apart, the answer being strictly increasing; and from the pillars of a moment after base_year the search finds exactly one moment less than 58 years away, in the double-hour of the moment started from (unless a Jie falls as described in C69).", "quantifier": "all pairs of moments less than 59 years apart; all pillars given, both conventions, all base years from 1586 and present years up to 6888; all moments for the way there and back", "why_tests_cant": "The claim compares every pair of moments of a lifetime; tests look up a few charts.", "anchors": ["lunar_python/Solar.py:fromBaZi", "lunar_python/Lunar.py:getYearInGanZhiExact", "lunar_python/Lunar.py:getMonthInGanZhiExact", "lunar_python/Lunar.py:getDayInGanZhiExact", "lunar_python/Lunar.py:getTimeInGanZhi"]}
{"id": "C108", "title": "Lunar dates are ordered like time", "statement": "One moment is before another exactly if its lunar date comes earlier by its parts: by year, then number of the month with a leap month after the month of its number, then day, hour, minute and second; and the solar moments of two lunar dates accepted by Lunar.fromYmdHms stand in the order of the lunar dates.", "quantifier": "all pairs of moments of the years 1586..6889, all pairs of accepted lunar dates of the years 1587..6888 (math.sin and math.cos accurate to 2^-50)", "why_tests_cant": "A statement about all pairs of moments; the months are named year by year from separately computed lists of fifteen that overlap.", "anchors": ["lunar_python/Lunar.py:fromSolar", "lunar_python/Lunar.py:fromYmdHms", "lunar_python/LunarYear.py:compute"]}
{"id": "C109", "title": "Lunar anniversaries", "statement": "From a day of month m (not a leap month) of lunar year Y to the same day of the same month of year Y+1 it is 353, 354 or 355 days, and then no day between lies in a leap month, or 383, 384 or 385 days, and then one does; days 1 to 29 of months 1 to 12 exist in every year.", "quantifier": "all months and days of the years 1586..4990 (math.sin and math.cos accurate to 2^-50)", "why_tests_cant": "Depends on where the leap months fall in two successive years, which tests see only in the years they list.", "anchors": ["lunar_python/Lunar.py:fromYmd", "lunar_python/Lunar.py:fromYmdHms", "lunar_python/Lunar.py:fromSolar", "lunar_python/LunarYear.py:compute"]}
{"id": "C110", "title": "Dog days and nine nines by the civil date", "statement": "Every year has a day d of July on which 初伏 begins and a day e of August, e = d-11 or d-1, on which 末伏 begins, both 庚 days; getFu counts 初伏 from d for ten days, 中伏 up to e and 末伏 for ten days, and is None on all other days of the year (d is 6..22, 10..21 in 1961-2099). Every winter has a day of December (19..23; 21 or 22 in 1961-2099) from which getShuJiu counts eighty-one days in nines, over New Year although the moments on its two sides read different tables, and it is None in the rest of the two half-years. So January and February are always in the nines, 22 July to 10 August always in the dog days, and nothing before 6 July or after 27 August is.", "quantifier": "all moments of the years 1585..6889, all winters from 1586 to 6888 (math.sin and math.cos accurate to 2^-50)", "why_tests_cant": "The days depend on the ephemeris and on the cycle of ten days against the civil year; tests list a few years.", "anchors": ["lunar_python/Lunar.py:getFu", "lunar_python/Lunar.py:getShuJiu"]}
{"id": "C111", "title": "The nine stars stand on the Luo Shu square", "statement": "getYearNineStar, getMonthNineStar, getDayNineStar and getTimeNineStar of any moment, by any convention, answer with a star of one of the nine palaces of the magic square: its number, trigram (getPosition), direction (getPositionDesc), phase (getWuXing), door (getBaMenInQiMen, clockwise 休生伤杜景死惊开 from the north, none in the middle) and polarity (getYinYangInQiMen) are those of the palace, and toString is number, colour, phase and name; three stars in a line of the square make fifteen.", "quantifier": "all moments of the years 1586..6889, all values of sect (math.sin and math.cos accurate to 2^-50)", "why_tests_cant": "Tests look at a few dates; here no moment, year or convention leads to an index outside the tables, and the tables agree with one another.", "anchors": ["lunar_python/Lunar.py:getYearNineStar", "lunar_python/Lunar.py:getMonthNineStar", "lunar_python/Lunar.py:getDayNineStar", "lunar_python/Lunar.py:getTimeNineStar", "lunar_python/NineStar.py:NineStar.toString", "lunar_python/NineStar.py:NineStar.getPosition"]}
{"id": "C112", "title": "The stars of the days from day to day", "statement": "getDayNineStar goes up or down by one from every civil day to the next, except on the 甲子 days nearest to the solstices, where it is 一白 (winter) or 九紫 (summer).", "quantifier": "all pairs of successive days of the years 1586..6889 (math.sin and math.cos accurate to 2^-50)", "why_tests_cant": "Tests look at single dates; the claim links each day to the next, also across New Year, where the two sides read different tables.", "anchors": ["lunar_python/Lunar.py:getDayNineStar", "lunar_python/Lunar.py:getDayInGanZhi"]}
{"id": "C113", "title": "The seventy-two pentads in order", "statement": "There is one count of pentads through all days, also over New Year, that never jumps: from each day to the next it stays or grows by one, the first and second pentad of a term have five days each, the third four to seven. getWuHou of every moment is the name of the pentad of its day among the traditional seventy-two from 东风解冻 at the beginning of spring, getHou names the term and 初候, 二候 or 三候, and getJieQi is not empty exactly on the first day of a first pentad.", "quantifier": "all moments of the years 1585..6889 (math.sin and math.cos accurate to 2^-50)", "why_tests_cant": "Tests look at single dates; the claim links each day with the next, over the boundaries of terms and of the yearly tables.", "anchors": ["lunar_python/Lunar.py:getWuHou", "lunar_python/Lunar.py:getHou", "lunar_python/Lunar.py:getJieQi"]}
{"id": "C114", "title": "The stars of the double-hours from hour to hour", "statement": "With the double-hours of all days counted in one row, the two clock hours around midnight as one, getTimeNineStar goes up by one from each to the next up to the day of 夏至 and from the day of 冬至 on, and down by one between.", "quantifier": "all moments of the years 1585..6889 (math.sin and math.cos accurate to 2^-50)", "why_tests_cant": "A statement about successive moments; tests look at single ones. It fails at every midnight, though the hour pillars there agree.", "anchors": ["lunar_python/Lunar.py:getTimeNineStar", "lunar_python/Lunar.py:getTimeInGanZhi"]}
{"id": "C115", "title": "What is told of a day or a double-hour does not change within it", "statement": "Two moments of one civil day have the same lunar date and the same answers about the day (pillars by the day, positions, clashes, lodges, officers and spirits, terms and pentads, stars of year, month and day, dog days and nines, what to do and not to do, festivals); two moments of one double-hour, also half an hour before and after midnight or New Year, have the same answers about the hour (pillar, positions, clash, spirit, what to do and not to do), all except getTimeNineStar.", "quantifier": "all pairs of moments of the years 1585..6888 (math.sin and math.cos accurate to 2^-50)", "why_tests_cant": "A statement about pairs of moments; each answer is computed from the moment with hours, minutes and seconds, and different tables of terms are read on the two sides of New Year.", "anchors": ["lunar_python/Lunar.py:fromSolar", "lunar_python/Lunar.py:getDayYi", "lunar_python/Lunar.py:getTimeYi", "lunar_python/Lunar.py:getTimeTianShen", "lunar_python/Lunar.py:getFestivals", "lunar_python/Lunar.py:getZhiXing"]}
{"id": "C116", "title": "The eight characters say all of a chart; which convention of the day is used", "statement": "Two charts with the same text give the same answers about every pillar (stem, branch, hidden stems, elements, na yin, ten gods, stages, xun, void branches) and the same 胎元, 胎息, 命宫, 身宫, whatever moments and conventions they come from. Before 23:00 the convention (setSect) changes nothing; from 23:00 on the day pillar is that of the next day unless the convention is 2. With another convention a chart stays the same through a double-hour, also over midnight, while no Jie is passed. After any calls of a program, Lunar.getEightChar gives the chart that it gave first, with the convention set last on it (2 if none), and getBaZi and the getBaZiShiShen...Zhi answer for that chart; charts from EightChar.fromLunar are independent.", "quantifier": "all pairs of charts, all conventions, all sequences of calls; for the double-hour all moments of 1585..6889 (math.sin and math.cos accurate to 2^-50)", "why_tests_cant": "Tests read a few charts; the claim relates arbitrary pairs of charts and arbitrary sequences of calls on shared objects.", "anchors": ["lunar_python/EightChar.py:setSect", "lunar_python/EightChar.py:toString", "lunar_python/EightChar.py:fromLunar", "lunar_python/Lunar.py:getEightChar", "lunar_python/Lunar.py:getBaZi"]}
{"id": "C117", "title": "The months follow the dates of the table of solar terms", "statement": "For moments of 1961 to 2998: the date that getJieQiTable gives a principal term (冬至, 大寒, ... every second entry from the winter solstice before the year to the winter solstice of the year) is the day on which LunarYear puts that term when it lays out the lunar months and finds the leap month, although the former comes from the long series of the sun and the latter from the short one; only if the instant in the table is within 20 seconds of midnight may the two differ, and then by one day, in the direction of the midnight. From 1961 to 2099 they never differ. So the lunar date of the winter solstice of the table is in the eleventh month of the same year, not a leap month, and in every year from 1961 to 2099, and in every later year whose principal terms are clear of midnight by 20 seconds, the leap month is the first month between the solstices that holds none of the dates of the table, if there are thirteen months, and there is none if there are twelve.", "quantifier": "all valid moments of 1961..2998, all principal terms of their tables; any sin and cos accurate to a last place", "why_tests_cant": "The two series differ by up to 18 minutes, the library switches to the long one when the short one comes out within 20 minutes of midnight; whether that margin is enough for every term of a thousand years cannot be told by samples, as a failure would be one term in tens of thousands.", "anchors": ["lunar_python/util/ShouXingUtil.py:qiHigh", "lunar_python/util/ShouXingUtil.py:saLonT2", "lunar_python/util/ShouXingUtil.py:saLonT", "lunar_python/util/ShouXingUtil.py:qiAccurate2", "lunar_python/LunarYear.py:compute"]}
{"id": "C118", "title": "Solar terms are where the sun stands at multiples of fifteen degrees", "statement": "Over a thousand years to either side of 2000 (|w| <= 6284 rad): ShouXingUtil.saLon(saLonT(w), -1) is w to 0.000001 rad and saLon(saLonT2(w), -1) is w to 0.00021 rad; saLon grows between any two times a third of a second or more apart; by the series evaluated without rounding there is exactly one instant at which the apparent longitude of the sun is w, and saLonT gives it to 4.2 seconds, saLonT2 to 18 minutes. So for moments of 1585 to 2997 entry i of getJieQiTable is the moment (120 degrees east) at which the longitude is 24*(year-2000)+17+i times 15 degrees, to 5.3 seconds, with the library's own difference of dynamical and universal time.", "quantifier": "all angles w up to 6284 rad, all pairs of times within 1002 years of 2000, all entries of all tables of 1585..2997; any sin and cos accurate to a last place", "why_tests_cant": "saLonT makes two steps of Newton from the mean sun and never tests whether it has arrived; that it has, for every angle, is a statement about a sum of some hundred periodic terms over a continuum of arguments.", "anchors": ["lunar_python/util/ShouXingUtil.py:saLonT", "lunar_python/util/ShouXingUtil.py:saLonT2", "lunar_python/util/ShouXingUtil.py:saLon", "lunar_python/util/ShouXingUtil.py:qiAccurate2", "lunar_python/Lunar.py:getJieQiTable"]}
{"id": "C119", "title": "The day of the lunar month is the age of the moon", "statement": "ShouXingUtil.msaLonT and msaLonT2 find the time at which the moon is ahead of the sun by the angle asked for: msaLon(t, -1, 60) at the time found is w to 0.01 rad, for all w from -3200 to 233500 rad (1959 to 5000). The months LunarYear lists from 1961 to 4980 begin, one after the other, on the days of consecutive new moons: the first day of month i holds an instant at which the elongation, by the series without rounding, is k+i turns to 0.01 rad. At any moment of 1961 to 4980 whose lunar date has day n the elongation is between 0.21277*(n-2)-0.42 and 0.21277*n+0.42 rad beyond a whole number of turns; so on day 1 (朔) the moon is within 38 degrees of the sun, on day 15 (望) within 47 degrees of the place opposite, waxing on days 4 to 12 and waning on days 19 to 27.", "quantifier": "all angles in the range, all months of all lists of 1961..4980, all valid moments of 1961..4980; any sin and cos accurate to a last place; any difference of dynamical and universal time within 14 minutes of the library's own", "why_tests_cant": "msaLonT makes three steps of Newton and msaLonT2 two, with shortened series and no test of convergence; that no new moon is ever missed or counted twice, and the phase of the moon on every day of three thousand years, are statements about a sum of hundreds of periodic terms over a continuum of arguments.", "anchors": ["lunar_python/util/ShouXingUtil.py:msaLonT", "lunar_python/util/ShouXingUtil.py:msaLonT2", "lunar_python/util/ShouXingUtil.py:msaLon", "lunar_python/util/ShouXingUtil.py:shuoHigh", "lunar_python/LunarYear.py:compute", "lunar_python/Lunar.py:getYueXiang"]}
{"id": "C120", "title": "Year pillar, month pillar and term of a moment tell where the sun stands", "statement": "For a moment of 1585 to 2997 and the apparent longitude of the sun at it, by the series without rounding and counted on from year to year, to 0.00025 rad (less than a minute of arc): getPrevJieQi and getNextJieQi are neighbouring terms and the longitude is between their multiples of 15 degrees; getMonthInGanZhiExact is pillar number m exactly while the longitude is between 2m-47887 and 2m-47885 times 15 degrees, so 寅 from 315 to 345 degrees, and except within a minute of arc of a Jie the longitude alone gives the pillar; getYearInGanZhiExact is pillar number y from the longitude 315 degrees of the year y+4 to that of the next.", "quantifier": "all valid moments of 1585..2997; any sin and cos accurate to a last place; any difference of dynamical and universal time within 14 minutes of the library's own", "why_tests_cant": "The pillars come from comparing texts of moments in a table of 31 terms of one year; that for every second of a thousand years they agree with the place of the sun is a statement about a continuum, over every boundary of terms and tables.", "anchors": ["lunar_python/Lunar.py:getMonthInGanZhiExact", "lunar_python/Lunar.py:getYearInGanZhiExact", "lunar_python/Lunar.py:getPrevJieQi", "lunar_python/Lunar.py:getNextJieQi", "lunar_python/util/ShouXingUtil.py:saLon", "lunar_python/util/ShouXingUtil.py:qiAccurate2"]}
{"id": "C121", "title": "The sign of the zodiac is where the sun stands", "statement": "For a moment of 1961 to 2099 the apparent longitude of the sun, by the series without rounding, is in the sign that Solar.getXingZuo names (白羊 from 0 to 30 degrees, 金牛 to 60, ...) or within 0.036 rad (2.07 degrees, two days) of it; so unless the sun is that near to a border, getXingZuo is the sign it is in. From 1585 to 2731 the same with 3.09 degrees at the beginning of a sign and 2.07 at its end.", "quantifier": "all valid moments of 1585..2731; any sin and cos accurate to a last place; any difference of dynamical and universal time within 14 minutes of the library's own", "why_tests_cant": "getXingZuo compares month and day with fixed days and knows nothing of the sun; how far the fixed days are from the sun's entries, in all years and at all hours, cannot be told by samples.", "anchors": ["lunar_python/Solar.py:getXingZuo", "lunar_python/util/ShouXingUtil.py:saLon"]}
{"id": "C122", "title": "The pentads divide the way of the sun", "statement": "For a moment of 1585 to 2997 with pentad number c (0 begins at 立春 of 2000, at 315 degrees): getWuHou is name c of the seventy-two, getHou its term and place in it, and the apparent longitude of the sun at the moment, by the series without rounding and counted on from year to year, is between c+63 and c+64 times 5 degrees, to 1.5 degrees at the beginning and 0.25 degrees at the end.", "quantifier": "all valid moments of 1585..2997; any sin and cos accurate to a last place; any difference of dynamical and universal time within 14 minutes of the library's own", "why_tests_cant": "The pentads are counted in whole days from the day of a term, while the sun moves with changing speed; how far the two come apart over a thousand years cannot be told by samples.", "anchors": ["lunar_python/Lunar.py:getWuHou", "lunar_python/Lunar.py:getHou", "lunar_python/util/ShouXingUtil.py:saLon"]}
{"id": "C123", "title": "The number of the lunar month tells where the sun stands", "statement": "For a moment of 1587 to 2997 whose lunar date is in month m (leap or not) of lunar year Y, the apparent longitude of the sun, by the series without rounding and counted on from year to year, is within 45 degrees of that of the principal term of the month, 24*(Y-2000)+2m+20 times 15 degrees (雨水, 330 degrees, for the first month, 冬至, 270 degrees, for the eleventh), to a minute of arc; in a leap month it is no more than 15 degrees before it, on the first day of a month no more than 15 degrees after it. So in months 2, 5, 8, 11 the cosine or sine of the longitude that is 1 or -1 at the equinox or solstice of the month is beyond 0.69 in size.", "quantifier": "all valid moments of 1587..2997; any sin and cos accurate to a last place; any difference of dynamical and universal time within 14 minutes of the library's own", "why_tests_cant": "Month numbers come from counting new moons between solstices and leaving out a leap month; that they keep in step with the seasons, in every month of a thousand years including the irregular ones about 2033, cannot be told by samples.", "anchors": ["lunar_python/Lunar.py:fromSolar", "lunar_python/Lunar.py:getMonth", "lunar_python/LunarYear.py:compute", "lunar_python/util/ShouXingUtil.py:saLon"]}
{"id": "C124", "title": "How often there is a leap month", "statement": "Among the n lunar years from Y on, the number of those for which LunarYear.getLeapMonth is not 0 is (365.2425 - 12*29.5306)*n/29.5306 to within 42/29.5306 (less than one and a half), however large n is: the months keep step with the solar years. Nineteen lunar years in a row have six, seven or eight leap months; after a year with a leap month comes one without; of four years in a row one has a leap month.", "quantifier": "all lunar years from 1585 to 4999, all numbers of years within them; any sin and cos accurate to a last place", "why_tests_cant": "The library finds leap months year by year from the months without a principal term; how often they come is a statement about all years and all stretches of years, and a single year gone wrong would shift all later ones.", "anchors": ["lunar_python/LunarYear.py:getLeapMonth", "lunar_python/LunarYear.py:compute", "lunar_python/LunarYear.py:getDayCount"]}
{"id": "C125", "title": "The name of the phase tells how much of the moon is lit", "statement": "Lunar.getYueXiang gives every moment of 1585 to 5000 a name, and from 1961 to 4980 the name is true of the moon by the series without rounding: on days named 朔 to 蛾眉 and 残 to 晦 less than half of the moon is lit, on days 渐盈凸 to 更待 more than half; on 朔 and 晦 at most 0.14 of it, from 小望 to 既望 at least 0.74; on 上弦 and 下弦 the moon is to the east and to the west of the sun by 34 degrees or more from being at it or opposite (sine of the elongation at least 0.57, at most -0.61); from 蛾眉 to 宵 it is waxing, from 寝待 to 蛾眉残 waning.", "quantifier": "all valid moments of 1961..4980, all names; any sin and cos accurate to a last place; any difference of dynamical and universal time within 14 minutes of the library's own", "why_tests_cant": "The name is looked up by the day of the lunar month alone; that it describes the moon at every moment of three thousand years depends on the new moons the months are cut by and on how unevenly the moon moves between them.", "anchors": ["lunar_python/Lunar.py:getYueXiang", "lunar_python/util/ShouXingUtil.py:msaLon", "lunar_python/LunarYear.py:compute"]}
{"id": "C126", "title": "Nineteen years are 235 lunar months", "statement": "For every lunar month that LunarMonth.fromYm gives from 1961 to 4960, next(235) succeeds and begins 6938 to 6941 days later (nineteen civil years have 6938 to 6940 days). So for every moment of 1961 to 4960 whose lunar day is d, not 30, and the same civil date nineteen years later, there is a date from two days before to three days after it on which the lunar calendar has day d of a month again. And if seven of nineteen lunar years from Y on have a leap month, the New Year of Y+19 is on the civil date of the New Year of Y, or up to two days before or three days after it; such a Y is among any 571 years from 1585 to 4400 on.", "quantifier": "all months and all valid moments of 1961..4960, all days of a month but the 30th; any sin and cos accurate to a last place", "why_tests_cant": "No part of the library knows of the cycle; every new moon is computed by itself from long series, so the distance of two new moons nineteen years apart is a fact about the series at all times, not of any sampled pair.", "anchors": ["lunar_python/LunarMonth.py:next", "lunar_python/util/ShouXingUtil.py:msaLonT", "lunar_python/util/ShouXingUtil.py:calcShuo", "lunar_python/LunarYear.py:compute"]}
{"id": "C127", "title": "Taoist festivals: once a year, or every sixty days", "statement": "Tao.getFestivals lists each festival of a solar term (the birthdays of 元始天尊 and 灵宝天尊 and the descents of the eight 节) on exactly one day of every civil year, in the fixed month of its term (1st to 10th, or 16th to 25th); each of the eight 会 on every sixtieth day and on no other, whatever the lunar date.", "quantifier": "all moments of the years 1585 to 6889, all festivals of these two kinds", "why_tests_cant": "Needs the days of the solar terms of thousands of years and the pillar of every day.", "anchors": ["lunar_python/Tao.py:getFestivals", "lunar_python/util/TaoUtil.py:BA_JIE", "lunar_python/util/TaoUtil.py:BA_HUI", "lunar_python/Lunar.py:getJieQi"]}
