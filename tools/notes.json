{
"C08": {
"note": "False as stated: in the last half second before a month end the result is day 32 etc. (C08_violated_day_32), before 1582-10-15 an exception (C08_violated_exception). Proved: these are the only failures; otherwise an existing moment within 0.501 s."
},
"C11": {
"note": "False as stated: Solar.py line 22 tests month>31 instead of day>31 so any day number >= 1 is accepted (C11_violated). Proved: all existing moments accepted, exact acceptance condition, nothing but ok/exception."
},
"C19": {
"note": "False as stated: getIndex wrong in 1582-10 (C19_violated_1582); SolarUtil.getWeeksOfMonth is one short when the 1st falls on a weekday numbered below start (C19_violated_weeksOfMonth). Proved: getIndex outside 1582-10, getIndexInYear everywhere, exact value of getWeeksOfMonth."
},
"C20": {
"note": "False as stated: backward steps with start != Sunday skip pieces (C20_violated_backward) and so do steps through 1582-10 (C20_violated_1582). Proved: forward for every start, backward for start = Sunday, away from 1582-10."
},
"C59": {
"note": "False: the last SolarWeek listed may carry a date of the next month, so its getDaysInMonth are days of that month (C59_violated). Proved when the 1st falls on the week start."
},
"C27": {
"note": "False as stated: fix() replaces the text of the old record wherever it occurs, also across a record border (C27_violated). Proved when the record's text occurs only at record boundaries (C27_fix_set_partial, C27_fix_remove_partial); the table stays a sequence of 18-character records for dash-free segments under any sequence of calls (C27_length, C27_length_history)."
},
"C28": {
"note": "False as stated: fix appends at the end, so a new day of a year other than the last is not listed by getHolidays (C28_violated). Proved when the new day is not earlier than the days in the table."
},
"C34": {
"note": "Year pillar by lunar year, by LiChun day and by LiChun moment proved when the lunar year is the solar year or the one before (C34_year_pillars). When the lunar year is ahead of the solar year (possible in a few historical years) the LiChun pillars are one year ahead (C34_lunar_year_ahead_violated)."
},
"C60": {
"note": "False as stated: LunarYear.compute numbers the months of a year by position, so in every year with a leap month all later months get the pillar of the following month (C60_after_leap_violated, for all such years), and one month read from two years' lists has two pillars (C60_two_lists_violated). Proved for months not preceded by a leap month of their year."
},
"C37": {
"note": "Contiguity for all years and all astronomical functions; numbering outside the two historical eras (AD 9-23, 237-239) where the code renumbers the months."
},
"C38": {
"note": "For years whose lists are cut from one sequence of months (hypothesis Almanac on the astronomical functions). C84 proves the hypothesis for the functions of the library, years 1584-6890."
},
"C39": {
"note": "Same hypothesis as C38."
},
"C40": {
"note": "Same hypothesis as C38."
},
"C41": {
"note": "Same hypothesis as C38."
},
"C42": {
"note": "Same hypothesis as C38; the steps add up in year, number, first day and day count (the index field may differ, see C60). C89_next is the same for the library's own calendar without hypotheses on the sky."
},
"C43": {
"note": "Transition system of fromYear (lines 42-51) for any number of threads; every interleaving of the reads and writes of the cache attribute and the lock operations."
},
"C44": {
"note": "False: acquire/release are not in try/finally, so one failing call (e.g. fromYear('2024')) leaves the lock held and no later call ever returns (C44_violated, for every continuation; C44_failure_reachable). Proved: with integer arguments every waiting call can be completed from every reachable state (C44_can_complete_partial)."
},
"C61": {
"note": "Outside the years with a hard-coded leap month and outside the historical eras."
},
"C45": {
"note": "For tables of 31 existing instants in order (hypothesis TermTable). C88_terms is the same for the library's own calendar without hypotheses on the sky."
},
"C46": {
"note": "For tables whose two winter solstices are at least 81 days apart. C87_nines is the same for the library's own calendar without hypotheses on the sky."
},
"C47": {
"note": "Needs that the solstice's own lunar date can be computed (hypothesis Almanac as in C38, for the solstice's year). C87_fu is the same for the library's own calendar without hypotheses on the sky."
},
"C62": {
"note": "False for getCurrentJieQi: the object's getSolar is the moment asked about, not the instant of the term (C62_violated_instant; getCurrentJie and getCurrentQi are right). Names, flags and None proved for all."
},
"C50": {
"note": "For lunar dates meeting Lunar.Proper; sect 1 counts 21:00-24:00 as the last double hour of the day, as the code does."
},
"C51": {
"note": "False for decade pillars beyond a double turn of the cycle: DaYun.getGanZhi subtracts 60 only once, so going forward it raises IndexError from index 120 - m on (C51_decade_violated). Proved below that bound, in particular for the first sixty decades; years, ages, LiuNian, XiaoYun and LiuYue for all indices. C88_luck is the same for the library's own calendar without hypotheses on the sky."
},
"C48": {
"note": "Year, month, day and hour stars proved in closed form, the day star over an Almanac. Month star with sect=1 mixes the New Year year with the Jie month, so the star changes inside a month: C48_month_sect1_violated. Dates beyond the 14th Jie of the table (next year's Li Chun) are excluded (k <= 14); they do not occur for dates inside the solar year. C87_day_star is the same for the library's own calendar without hypotheses on the sky."
},
"C53": {
"note": "Proved for every accepted date; the Foto year is two less than given if the day lies in the solar year before the lunar year's number (C53_foto, last clause; possible only where the code's lunar year runs ahead of the solar year, AD 8-23 and 237-239, which Foto.fromYmd can reach)."
},
"C67": {
"note": "False in three places of the table: the 6th of month 11 lacks 雷斋日, the 30th of month 12 lacks 月晦/司命奏事/四天王巡行, and the 16th of month 10 has 四天王巡行 marked as of every month while no other 16th lists it (C67_violated_*). Proved for all other days."
},
"C54": {
"note": "Proved for every pair of texts, with the lists of each record. Also: no name in both lists, none twice, except 癸酉 days of the eighth month whose lucky spirits list one name twice (C54_shen_twice)."
},
"C52": {
"note": "C52_sound is unconditional. Order, validity and year >= base_year are proved for an hour pillar ending in a branch, in a range of years in which the calendar meets Almanac and SunAlmanac (C84 proves both for the functions of the library, years 1584-6890). With another hour string the code builds Solar with hour -2 and raises."
},
"C69": {
"note": "False: the search tries only the even full hour of a double-hour, so when a Jie falls in its first half, or on that full hour, the moments before the Jie are not found (C69_missed_violated for every calendar, C69_violated for a concrete one); and moments of base_year before its first Jie are not found although base_year is meant to be included (C69_base_violated). Proved for all other moments (C69_complete_partial)."
},
"C75": {
"note": "False on 己巳, 己卯 and 己丑 days, where the lists of the code (Lunar.py 452-465) have 已 for 己 (C75_day_violated: 2024-03-06). Proved for all other days, and for year and month."
},
"C78": {
"note": "In a range of years in which the calendar meets Almanac (C84 proves it for the functions of the library); for 除夕 the months have at least 29 days and the next day's year has no hard-coded oddity (Plain). C86_festivals is the same for the library from 1584 to 5000 without these hypotheses. C87_other_festivals is the same for the library's own calendar without hypotheses on the sky."
},
"C70": {
"note": "The text itself is proved for years >= 0; uniqueness for all years (the minus sign is written 十, as str.find gives -1)."
},
"C79": {
"note": "False for getNineStar: it compares a Solar with a string and raises TypeError for every date (C79_nineStar_violated). All other getters agree (C79_same), unconditionally; getTimes in years whose calendar meets Almanac; C79_times_library is the same for the library's own calendar without hypotheses on the sky."
},
"C80": {
"note": "For toFullString: in years whose calendar meets Almanac, lunar year not ahead of the solar year. C88_full is the same for the library's own calendar without hypotheses on the sky."
},
"C66": {
"note": "C66_six asks that the month has 29 or 30 days; C86_six is the same for the library from 1584 to 5000 without that hypothesis."
},
"C55": {
"note": "C89_sayings is the same for the library's own calendar without hypotheses on the sky."
},
"C87": {
"note": "For the functions of the library with sin and cos accurate to 2^-50 (Libm.Good). The day star from 1586, since it looks at the table of the year before."
},
"C88": {
"note": "For the functions of the library with sin and cos accurate to 2^-50; toFullString up to 5000, as it needs the months of C86."
},
"C89": {
"note": "For the functions of the library with sin and cos accurate to 2^-50."
},
"C90": {
"note": "For the functions of the library with sin and cos accurate to 2^-50 (Libm.Good). The bounds 14 and 16 days hold in fact everywhere near our time; the lines used are too wide to show 16 outside 1962-2730."
},
"C91": {
"note": "For the functions of the library with sin and cos accurate to 2^-50 (Libm.Good). The lists of days are those the enclosures allow; the actual days may be fewer."
},
"C92": {
"note": "For the functions of the library with sin and cos accurate to 2^-50 (Libm.Good). The first and last day are those the enclosures of the terms allow; in most centuries the actual range is January 21 to February 20 or 21."
},
"C93": {
"note": "Twelve and thirteen lunations of the computed elongation bounded over 3000 years (Proof/Lunation/Year, YearDays); table years by a kernel check over all months 1584-1960. Range limited by the series bounds of C86."
},
"C94": {
"note": "The sign of the zodiac and the weekday of the text are those of C21 and of the spec's weekday; the names are taken from the tables of the code, written down again with their dates in Spec/SolarFest."
},
"C95": {
"note": "False for weeks in October 1582: SolarWeek.getIndex counts days by the day of the month, so 16 and 17 October (start Sunday) both read 1582.10.3."
},
"C96": {
"note": "The pillar of a lunar month is the one LunarMonth.getGanZhi gives, which is a month ahead after a leap month (C60)."
},
"C97": {
"note": "For the functions of the library with sin and cos accurate to 2^-50 (Libm.Good). From the solstice at either end of the twelve or thirteen months, with months of 29 or 30 days (C86) and principal terms within 4.6 days of a mean line."
},
"C98": {
"note": "The years before luck starts have no pillar (getGanZhi is empty), yet DaYun.getXun reports 甲子 and getXunKong 戌亥 for them: C98_childhood. Periods beyond the sixtieth: see C51 (getGanZhi raises going forward)."
},
"C99": {
"note": "EightChar texts for lunar dates with proper indices (Lunar.Proper, proved for every date of an almanac); C99_library for the functions of the library with sin and cos accurate to 2^-50."
},
"C100": {
"note": "False for anniversaries on a thirtieth day: in a year whose ninth month has 29 days 药师琉璃光佛圣诞 is on no day (C100_violated_short_month, shown for 2024 in the sample almanac). All others come every year."
},
"C101": {
"note": "False in three places of the data of HolidayUtil.py 13: getHolidaysByTarget stops at a record of another festival, so for the National Days 2014, 2015 and 2017 it returns 4 records and omits the first of October itself; the records of 2014-10-04 and 2015-10-04 name 国庆节 with a festival day of 4 October; 2012-05-02 (Wednesday) and 2012-10-08 (Monday) are marked as shifted working days. The other records satisfy the statements."
},
"C102": {
"note": "For holidays made by other tables the condition is that day and name have no space and the name does not end in 休."
},
"C103": {
"note": "Partial: corrections of years ending in 0 to 3 are not covered (a record text may occur across the border of two others there, as in C27_violated); two corrections of one new day in one call leave the first in force (C103_violated_twice)."
},
"C112": {
"note": "Violated at some New Years: when the turning days of summer and winter are 240 days apart and the latter lies in January, the first days of January are counted back from it and the last days of December forward from summer (31 December 2008 has the fourth star, 1 January 2009 the ninth): C112_new_year_violated. Proved for all pairs of days within a civil year (C112_step_partial) and over New Year when the turns are 180 days apart (C112_new_year_partial)."
},
"C114": {
"note": "Proved for all moments before 23:00 (C114_hours_partial). C114_late_hour_violated: from 23:00 to midnight the claim fails on every day, since the star is counted from the branch of the ending day while the hour pillar is that of the double-hour of midnight."
}
}