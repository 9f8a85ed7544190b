{
 "claims": [
  {
   "property": "C01",
   "status": "proved",
   "theorems": [
    "C01_next_is_iterated_tomorrow",
    "C01_daysAfter_unique",
    "C01_tomorrow_valid"
   ],
   "note": ""
  },
  {
   "property": "C02",
   "status": "proved",
   "theorems": [
    "C02_next_add",
    "C02_next_zero",
    "C02_next_inverse"
   ],
   "note": ""
  },
  {
   "property": "C03",
   "status": "proved",
   "theorems": [
    "C03_subtract_is_distance",
    "C03_subtract_iff",
    "C03_subtract_antisymm",
    "C03_subtract_add",
    "C03_subtract_zero_iff"
   ],
   "note": ""
  },
  {
   "property": "C04",
   "status": "proved",
   "theorems": [
    "C04_isBefore_iff_seconds",
    "C04_isAfter_converse",
    "C04_trichotomy",
    "C04_trans"
   ],
   "note": ""
  },
  {
   "property": "C05",
   "status": "proved",
   "theorems": [
    "C05_toYmd_order",
    "C05_toYmdHms_order",
    "C05_fails_outside"
   ],
   "note": ""
  },
  {
   "property": "C06",
   "status": "proved",
   "theorems": [
    "C06_noon_difference",
    "C06_next_day",
    "C06_accuracy",
    "C06_strictly_increasing",
    "C06_epoch",
    "C06_range_needed"
   ],
   "note": ""
  },
  {
   "property": "C07",
   "status": "proved",
   "theorems": [
    "C07_round_trip"
   ],
   "note": ""
  },
  {
   "property": "C08",
   "status": "partial",
   "theorems": [
    "C08_existing_except_month_ends_partial",
    "C08_violated_day_32",
    "C08_violated_exception"
   ],
   "note": "False as stated: in the last half second before a month end the result is day 32 etc. (C08_violated_day_32), before 1582-10-15 an exception (C08_violated_exception). Proved: these are the only failures; otherwise an existing moment within 0.501 s."
  },
  {
   "property": "C09",
   "status": "proved",
   "theorems": [
    "C09_week_advances",
    "C09_week_clock_irrelevant",
    "C09_epoch"
   ],
   "note": ""
  },
  {
   "property": "C10",
   "status": "proved",
   "theorems": [
    "C10_daysOfMonth",
    "C10_jan1_valid",
    "C10_jan1_dn",
    "C10_daysOfYear",
    "C10_months_sum",
    "C10_daysInYear",
    "C10_daysInYear_gap"
   ],
   "note": ""
  },
  {
   "property": "C11",
   "status": "partial",
   "theorems": [
    "C11_accepts_existing_partial",
    "C11_accepts_iff_partial",
    "C11_result",
    "C11_violated"
   ],
   "note": "False as stated: Solar.py line 22 tests month>31 instead of day>31 so any day number >= 1 is accepted (C11_violated). Proved: all existing moments accepted, exact acceptance condition, nothing but ok/exception."
  },
  {
   "property": "C12",
   "status": "proved",
   "theorems": [
    "C12_nextMonth",
    "C12_nextYear"
   ],
   "note": ""
  },
  {
   "property": "C13",
   "status": "proved",
   "theorems": [
    "C13_nextHour",
    "C13_nextHour_add"
   ],
   "note": ""
  },
  {
   "property": "C14",
   "status": "proved",
   "theorems": [
    "C14_subtractMinute",
    "C14_nextHour_minutes"
   ],
   "note": ""
  },
  {
   "property": "C15",
   "status": "proved",
   "theorems": [
    "C15_month_next",
    "C15_season_next",
    "C15_half_next",
    "C15_next_add",
    "C15_year_months",
    "C15_partition",
    "C15_months_real"
   ],
   "note": ""
  },
  {
   "property": "C16",
   "status": "proved",
   "theorems": [
    "C16_month_days"
   ],
   "note": ""
  },
  {
   "property": "C17",
   "status": "proved",
   "theorems": [
    "C17_first_day",
    "C17_days",
    "C17_next_week"
   ],
   "note": ""
  },
  {
   "property": "C18",
   "status": "proved",
   "theorems": [
    "C18_month_weeks"
   ],
   "note": ""
  },
  {
   "property": "C19",
   "status": "partial",
   "theorems": [
    "C19_index_partial",
    "C19_index_in_year",
    "C19_weeks_of_month_partial",
    "C19_violated_1582",
    "C19_violated_weeksOfMonth"
   ],
   "note": "False as stated: getIndex wrong in 1582-10 (C19_violated_1582); SolarUtil.getWeeksOfMonth is one short when the 1st falls on a weekday numbered below start (C19_violated_weeksOfMonth). Proved: getIndex outside 1582-10, getIndexInYear everywhere, exact value of getWeeksOfMonth."
  },
  {
   "property": "C20",
   "status": "partial",
   "theorems": [
    "C20_forward_partial",
    "C20_backward_partial",
    "C20_violated_backward",
    "C20_violated_1582"
   ],
   "note": "False as stated: backward steps with start != Sunday skip pieces (C20_violated_backward) and so do steps through 1582-10 (C20_violated_1582). Proved: forward for every start, backward for start = Sunday, away from 1582-10."
  },
  {
   "property": "C21",
   "status": "proved",
   "theorems": [
    "C21_zodiac_steps",
    "C21_zodiac_range"
   ],
   "note": ""
  },
  {
   "property": "C22",
   "status": "proved",
   "theorems": [
    "C22_week_festivals",
    "C22_once"
   ],
   "note": ""
  },
  {
   "property": "C23",
   "status": "proved",
   "theorems": [
    "C23_next_work",
    "C23_exists",
    "C23_unique",
    "C23_zero"
   ],
   "note": ""
  },
  {
   "property": "C24",
   "status": "proved",
   "theorems": [
    "C24_getHoliday",
    "C24_getHoliday_string",
    "C24_short_year"
   ],
   "note": ""
  },
  {
   "property": "C25",
   "status": "proved",
   "theorems": [
    "C25_getHolidays_year",
    "C25_getHolidays_month"
   ],
   "note": ""
  },
  {
   "property": "C26",
   "status": "proved",
   "theorems": [
    "C26_by_target"
   ],
   "note": ""
  },
  {
   "property": "C27",
   "status": "partial",
   "theorems": [
    "C27_fix_set_partial",
    "C27_fix_remove_partial",
    "C27_violated",
    "C27_length",
    "C27_length_history"
   ],
   "note": "False as stated: fix() replaces the text of the old record wherever it occurs, also across a record border (C27_violated). Proved when the record's text occurs only at record boundaries (C27_fix_set_partial, C27_fix_remove_partial); the table stays a sequence of 18-character records for dash-free segments under any sequence of calls (C27_length, C27_length_history)."
  },
  {
   "property": "C28",
   "status": "partial",
   "theorems": [
    "C28_violated",
    "C28_append_partial"
   ],
   "note": "False as stated: fix appends at the end, so a new day of a year other than the last is not listed by getHolidays (C28_violated). Proved when the new day is not earlier than the days in the table."
  },
  {
   "property": "C29",
   "status": "proved",
   "theorems": [
    "C29_index",
    "C29_only_pairs",
    "C29_others",
    "C29_crt"
   ],
   "note": ""
  },
  {
   "property": "C30",
   "status": "proved",
   "theorems": [
    "C30_xun",
    "C30_xunKong"
   ],
   "note": ""
  },
  {
   "property": "C31",
   "status": "proved",
   "theorems": [
    "C31_day_pillar",
    "C31_advances",
    "C31_period"
   ],
   "note": ""
  },
  {
   "property": "C32",
   "status": "proved",
   "theorems": [
    "C32_late_night"
   ],
   "note": ""
  },
  {
   "property": "C33",
   "status": "proved",
   "theorems": [
    "C33_time_index",
    "C33_hour_pillar"
   ],
   "note": ""
  },
  {
   "property": "C34",
   "status": "partial",
   "theorems": [
    "C34_year_pillars",
    "C34_lunar_year_ahead_violated"
   ],
   "note": "Year pillar by lunar year, by LiChun day and by LiChun moment proved when the lunar year is the solar year or the one before (C34_year_pillars). When the lunar year is ahead of the solar year (possible in a few historical years) the LiChun pillars are one year ahead (C34_lunar_year_ahead_violated)."
  },
  {
   "property": "C35",
   "status": "proved",
   "theorems": [
    "C35_month_pillar_exact",
    "C35_month_pillar_day",
    "C35_count_exists"
   ],
   "note": ""
  },
  {
   "property": "C36",
   "status": "proved",
   "theorems": [
    "C36_chart",
    "C36_taiYuan",
    "C36_taiXi",
    "C36_pillars"
   ],
   "note": ""
  },
  {
   "property": "C37",
   "status": "proved",
   "theorems": [
    "C37_length",
    "C37_contiguous",
    "C37_numbering",
    "C37_own_months",
    "C37_day_count",
    "C37_get_month",
    "C37_leap_month"
   ],
   "note": "Contiguity for all years and all astronomical functions; numbering outside the two historical eras (AD 9-23, 237-239) where the code renumbers the months."
  },
  {
   "property": "C38",
   "status": "proved",
   "theorems": [
    "C38_round_trip",
    "C38_proper"
   ],
   "note": "For years whose lists are cut from one sequence of months (hypothesis Almanac on the astronomical functions). C84 proves the hypothesis for the functions of the library, years 1584-6890."
  },
  {
   "property": "C39",
   "status": "proved",
   "theorems": [
    "C39_round_trip"
   ],
   "note": "Same hypothesis as C38."
  },
  {
   "property": "C40",
   "status": "proved",
   "theorems": [
    "C40_accepts_iff"
   ],
   "note": "Same hypothesis as C38."
  },
  {
   "property": "C41",
   "status": "proved",
   "theorems": [
    "C41_next",
    "C41_next_add",
    "C41_tomorrow"
   ],
   "note": "Same hypothesis as C38."
  },
  {
   "property": "C42",
   "status": "proved",
   "theorems": [
    "C42_next",
    "C42_next_add"
   ],
   "note": "Same hypothesis as C38; the steps add up in year, number, first day and day count (the index field may differ, see C60). C89_next is the same for the library's own calendar without hypotheses on the sky."
  },
  {
   "property": "C43",
   "status": "proved",
   "theorems": [
    "C43_answers",
    "C43_exclusive",
    "C43_cache"
   ],
   "note": "Transition system of fromYear (lines 42-51) for any number of threads; every interleaving of the reads and writes of the cache attribute and the lock operations."
  },
  {
   "property": "C44",
   "status": "partial",
   "theorems": [
    "C44_violated",
    "C44_failure_reachable",
    "C44_can_complete_partial"
   ],
   "note": "False: acquire/release are not in try/finally, so one failing call (e.g. fromYear('2024')) leaves the lock held and no later call ever returns (C44_violated, for every continuation; C44_failure_reachable). Proved: with integer arguments every waiting call can be completed from every reachable state (C44_can_complete_partial)."
  },
  {
   "property": "C45",
   "status": "proved",
   "theorems": [
    "C45_next",
    "C45_next_day",
    "C45_prev",
    "C45_prev_day",
    "C45_adjacent"
   ],
   "note": "For tables of 31 existing instants in order (hypothesis TermTable). C88_terms is the same for the library's own calendar without hypotheses on the sky."
  },
  {
   "property": "C46",
   "status": "proved",
   "theorems": [
    "C46_nines"
   ],
   "note": "For tables whose two winter solstices are at least 81 days apart. C87_nines is the same for the library's own calendar without hypotheses on the sky."
  },
  {
   "property": "C47",
   "status": "proved",
   "theorems": [
    "C47_decades"
   ],
   "note": "Needs that the solstice's own lunar date can be computed (hypothesis Almanac as in C38, for the solstice's year). C87_fu is the same for the library's own calendar without hypotheses on the sky."
  },
  {
   "property": "C48",
   "status": "partial",
   "theorems": [
    "C48_getters",
    "C48_lunarYear",
    "C48_year",
    "C48_month_exact",
    "C48_month_day",
    "C48_lunarMonth",
    "C48_month_sect1_violated",
    "C48_day",
    "C48_time"
   ],
   "note": "Year, month, day and hour stars proved in closed form, the day star over an Almanac. Month star with sect=1 mixes the New Year year with the Jie month, so the star changes inside a month: C48_month_sect1_violated. Dates beyond the 14th Jie of the table (next year's Li Chun) are excluded (k <= 14); they do not occur for dates inside the solar year. C87_day_star is the same for the library's own calendar without hypotheses on the sky."
  },
  {
   "property": "C49",
   "status": "proved",
   "theorems": [
    "C49_mansion"
   ],
   "note": ""
  },
  {
   "property": "C50",
   "status": "proved",
   "theorems": [
    "C50_start",
    "C50_start_minutes",
    "C50_missing"
   ],
   "note": "For lunar dates meeting Lunar.Proper; sect 1 counts 21:00-24:00 as the last double hour of the day, as the code does."
  },
  {
   "property": "C51",
   "status": "partial",
   "theorems": [
    "C51_start_solar",
    "C51_decades",
    "C51_years",
    "C51_decade_pillar_partial",
    "C51_decade_zero",
    "C51_decade_violated",
    "C51_year_pillar",
    "C51_small_pillar",
    "C51_month_pillar"
   ],
   "note": "False for decade pillars beyond a double turn of the cycle: DaYun.getGanZhi subtracts 60 only once, so going forward it raises IndexError from index 120 - m on (C51_decade_violated). Proved below that bound, in particular for the first sixty decades; years, ages, LiuNian, XiaoYun and LiuYue for all indices. C88_luck is the same for the library's own calendar without hypotheses on the sky."
  },
  {
   "property": "C52",
   "status": "proved",
   "theorems": [
    "C52_sound",
    "C52_ordered"
   ],
   "note": "C52_sound is unconditional. Order, validity and year >= base_year are proved for an hour pillar ending in a branch, in a range of years in which the calendar meets Almanac and SunAlmanac (C84 proves both for the functions of the library, years 1584-6890). With another hour string the code builds Solar with hour -2 and raises."
  },
  {
   "property": "C53",
   "status": "proved",
   "theorems": [
    "C53_tao",
    "C53_foto",
    "C53_year"
   ],
   "note": "Proved for every accepted date; the Foto year is two less than given if the day lies in the solar year before the lunar year's number (C53_foto, last clause; possible only where the code's lunar year runs ahead of the solar year, AD 8-23 and 237-239, which Foto.fromYmd can reach)."
  },
  {
   "property": "C54",
   "status": "proved",
   "theorems": [
    "C54_day_record",
    "C54_day_unique",
    "C54_day",
    "C54_day_unknown",
    "C54_time_record",
    "C54_time",
    "C54_time_unknown",
    "C54_shen_record",
    "C54_shen",
    "C54_shen_twice",
    "C54_shen_unknown",
    "C54_lunar"
   ],
   "note": "Proved for every pair of texts, with the lists of each record. Also: no name in both lists, none twice, except 癸酉 days of the eighth month whose lucky spirits list one name twice (C54_shen_twice)."
  },
  {
   "property": "C55",
   "status": "proved",
   "theorems": [
    "C55_unique",
    "C55_branches",
    "C55_stems",
    "C55_double"
   ],
   "note": "C89_sayings is the same for the library's own calendar without hypotheses on the sky."
  },
  {
   "property": "C56",
   "status": "proved",
   "theorems": [
    "C56_table",
    "C56_unique",
    "C56_stem",
    "C56_hidden",
    "C56_hidden_gods"
   ],
   "note": ""
  },
  {
   "property": "C57",
   "status": "proved",
   "theorems": [
    "C57_life_stage"
   ],
   "note": ""
  },
  {
   "property": "C58",
   "status": "proved",
   "theorems": [
    "C58_mingGong",
    "C58_shenGong"
   ],
   "note": ""
  },
  {
   "property": "C59",
   "status": "partial",
   "theorems": [
    "C59_violated",
    "C59_weeks_in_month_partial"
   ],
   "note": "False: the last SolarWeek listed may carry a date of the next month, so its getDaysInMonth are days of that month (C59_violated). Proved when the 1st falls on the week start."
  },
  {
   "property": "C60",
   "status": "partial",
   "theorems": [
    "C60_month_pillar_partial",
    "C60_after_leap_violated",
    "C60_two_lists_violated"
   ],
   "note": "False as stated: LunarYear.compute numbers the months of a year by position, so in every year with a leap month all later months get the pillar of the following month (C60_after_leap_violated, for all such years), and one month read from two years' lists has two pillars (C60_two_lists_violated). Proved for months not preceded by a leap month of their year."
  },
  {
   "property": "C61",
   "status": "proved",
   "theorems": [
    "C61_leap_month_without_term",
    "C61_leap_month_exists"
   ],
   "note": "Outside the years with a hard-coded leap month and outside the historical eras."
  },
  {
   "property": "C62",
   "status": "partial",
   "theorems": [
    "C62_name",
    "C62_current",
    "C62_current_any_partial",
    "C62_violated_instant"
   ],
   "note": "False for getCurrentJieQi: the object's getSolar is the moment asked about, not the instant of the term (C62_violated_instant; getCurrentJie and getCurrentQi are right). Names, flags and None proved for all."
  },
  {
   "property": "C63",
   "status": "proved",
   "theorems": [
    "C63_pentad"
   ],
   "note": ""
  },
  {
   "property": "C64",
   "status": "proved",
   "theorems": [
    "C64_naYin_phase",
    "C64_naYin_couples",
    "C64_wuXing",
    "C64_naYin_of"
   ],
   "note": ""
  },
  {
   "property": "C65",
   "status": "proved",
   "theorems": [
    "C65_cycles"
   ],
   "note": ""
  },
  {
   "property": "C66",
   "status": "proved",
   "theorems": [
    "C66_six",
    "C66_ten",
    "C66_yang_gong",
    "C66_guan_yin",
    "C66_mansion"
   ],
   "note": "C66_six asks that the month has 29 or 30 days; C86_six is the same for the library from 1584 to 5000 without that hypothesis."
  },
  {
   "property": "C67",
   "status": "partial",
   "theorems": [
    "C67_every_month_partial",
    "C67_violated_thunder",
    "C67_violated_last",
    "C67_violated_sixteenth"
   ],
   "note": "False in three places of the table: the 6th of month 11 lacks 雷斋日, the 30th of month 12 lacks 月晦/司命奏事/四天王巡行, and the 16th of month 10 has 四天王巡行 marked as of every month while no other 16th lists it (C67_violated_*). Proved for all other days."
  },
  {
   "property": "C68",
   "status": "proved",
   "theorems": [
    "C68_fixed",
    "C68_by_day",
    "C68_an_wu",
    "C68_tian_she",
    "C68_ba_jie",
    "C68_festivals",
    "C68_sun",
    "C68_pillar",
    "C68_yearly"
   ],
   "note": ""
  },
  {
   "property": "C69",
   "status": "partial",
   "theorems": [
    "C69_complete_partial",
    "C69_missed_violated",
    "C69_violated",
    "C69_base_violated"
   ],
   "note": "False: the search tries only the even full hour of a double-hour, so when a Jie falls in its first half, or on that full hour, the moments before the Jie are not found (C69_missed_violated for every calendar, C69_violated for a concrete one); and moments of base_year before its first Jie are not found although base_year is meant to be included (C69_base_violated). Proved for all other moments (C69_complete_partial)."
  },
  {
   "property": "C70",
   "status": "proved",
   "theorems": [
    "C70_words",
    "C70_parts",
    "C70_injective",
    "C70_foto_tao"
   ],
   "note": "The text itself is proved for years >= 0; uniqueness for all years (the minus sign is written 十, as str.find gives -1)."
  },
  {
   "property": "C71",
   "status": "proved",
   "theorems": [
    "C71_day",
    "C71_time"
   ],
   "note": ""
  },
  {
   "property": "C72",
   "status": "proved",
   "theorems": [
    "C72_officer",
    "C72_next"
   ],
   "note": ""
  },
  {
   "property": "C73",
   "status": "proved",
   "theorems": [
    "C73_day",
    "C73_time"
   ],
   "note": ""
  },
  {
   "property": "C74",
   "status": "proved",
   "theorems": [
    "C74_day",
    "C74_time"
   ],
   "note": ""
  },
  {
   "property": "C75",
   "status": "partial",
   "theorems": [
    "C75_year",
    "C75_month",
    "C75_day_partial",
    "C75_day_violated"
   ],
   "note": "False on 己巳, 己卯 and 己丑 days, where the lists of the code (Lunar.py 452-465) have 已 for 己 (C75_day_violated: 2024-03-06). Proved for all other days, and for year and month."
  },
  {
   "property": "C76",
   "status": "proved",
   "theorems": [
    "C76_six_days",
    "C76_phase",
    "C76_season",
    "C76_salary"
   ],
   "note": ""
  },
  {
   "property": "C77",
   "status": "proved",
   "theorems": [
    "C77_day",
    "C77_month"
   ],
   "note": ""
  },
  {
   "property": "C78",
   "status": "proved",
   "theorems": [
    "C78_festivals",
    "C78_other_festivals"
   ],
   "note": "In a range of years in which the calendar meets Almanac (C84 proves it for the functions of the library); for 除夕 the months have at least 29 days and the next day's year has no hard-coded oddity (Plain). C86_festivals is the same for the library from 1584 to 5000 without these hypotheses. C87_other_festivals is the same for the library's own calendar without hypotheses on the sky."
  },
  {
   "property": "C79",
   "status": "partial",
   "theorems": [
    "C79_times_library",
    "C79_same",
    "C79_interval",
    "C79_times",
    "C79_nineStar_violated"
   ],
   "note": "False for getNineStar: it compares a Solar with a string and raises TypeError for every date (C79_nineStar_violated). All other getters agree (C79_same), unconditionally; getTimes in years whose calendar meets Almanac; C79_times_library is the same for the library's own calendar without hypotheses on the sky."
  },
  {
   "property": "C80",
   "status": "proved",
   "theorems": [
    "C80_full",
    "C80_pengzu",
    "C80_animals"
   ],
   "note": "For toFullString: in years whose calendar meets Almanac, lunar year not ahead of the solar year. C88_full is the same for the library's own calendar without hypotheses on the sky."
  },
  {
   "property": "C81",
   "status": "proved",
   "theorems": [
    "C81_decades"
   ],
   "note": ""
  },
  {
   "property": "C82",
   "status": "proved",
   "theorems": [
    "C82_lists"
   ],
   "note": ""
  },
  {
   "property": "C83",
   "status": "proved",
   "theorems": [
    "C83_mansion",
    "C83_weekday"
   ],
   "note": ""
  },
  {
   "property": "C84",
   "status": "proved",
   "theorems": [
    "C84_almanac",
    "C84_round_trip",
    "C84_next",
    "C84_fromBaZi"
   ],
   "note": ""
  },
  {
   "property": "C85",
   "status": "proved",
   "theorems": [
    "C85_leap_rule",
    "C85_next_list"
   ],
   "note": ""
  },
  {
   "property": "C86",
   "status": "proved",
   "theorems": [
    "C86_length",
    "C86_fromYm",
    "C86_dates",
    "C86_day",
    "C86_six",
    "C86_festivals"
   ],
   "note": ""
  },
  {
   "property": "C87",
   "status": "proved",
   "theorems": [
    "C87_nines",
    "C87_fu",
    "C87_day_star",
    "C87_other_festivals"
   ],
   "note": "For the functions of the library with sin and cos accurate to 2^-50 (Libm.Good). The day star from 1586, since it looks at the table of the year before."
  },
  {
   "property": "C88",
   "status": "proved",
   "theorems": [
    "C88_full",
    "C88_terms",
    "C88_luck"
   ],
   "note": "For the functions of the library with sin and cos accurate to 2^-50; toFullString up to 5000, as it needs the months of C86."
  },
  {
   "property": "C89",
   "status": "proved",
   "theorems": [
    "C89_next",
    "C89_sayings"
   ],
   "note": "For the functions of the library with sin and cos accurate to 2^-50."
  },
  {
   "property": "C90",
   "status": "proved",
   "theorems": [
    "C90_terms",
    "C90_months",
    "C90_luck"
   ],
   "note": "For the functions of the library with sin and cos accurate to 2^-50 (Libm.Good). The bounds 14 and 16 days hold in fact everywhere near our time; the lines used are too wide to show 16 outside 1962-2730."
  },
  {
   "property": "C91",
   "status": "proved",
   "theorems": [
    "C91_dates",
    "C91_known",
    "C91_month"
   ],
   "note": "For the functions of the library with sin and cos accurate to 2^-50 (Libm.Good). The lists of days are those the enclosures allow; the actual days may be fewer."
  },
  {
   "property": "C92",
   "status": "proved",
   "theorems": [
    "C92_year",
    "C92_new_year",
    "C92_exists"
   ],
   "note": "For the functions of the library with sin and cos accurate to 2^-50 (Libm.Good). The first and last day are those the enclosures of the terms allow; in most centuries the actual range is January 21 to February 20 or 21."
  },
  {
   "property": "C93",
   "status": "proved",
   "theorems": [
    "C93_day_count",
    "C93_next_new_year"
   ],
   "note": "Twelve and thirteen lunations of the computed elongation bounded over 3000 years (Proof/Lunation/Year, YearDays); table years by a kernel check over all months 1584-1960. Range limited by the series bounds of C86."
  },
  {
   "property": "C94",
   "status": "proved",
   "theorems": [
    "C94_festivals",
    "C94_other",
    "C94_text",
    "C94_distinct"
   ],
   "note": "The sign of the zodiac and the weekday of the text are those of C21 and of the spec's weekday; the names are taken from the tables of the code, written down again with their dates in Spec/SolarFest."
  },
  {
   "property": "C95",
   "status": "partial",
   "theorems": [
    "C95_years",
    "C95_months",
    "C95_half_years",
    "C95_quarters",
    "C95_weeks_partial",
    "C95_weeks_violated_1582",
    "C95_lunar_months"
   ],
   "note": "False for weeks in October 1582: SolarWeek.getIndex counts days by the day of the month, so 16 and 17 October (start Sunday) both read 1582.10.3."
  },
  {
   "property": "C96",
   "status": "proved",
   "theorems": [
    "C96_year",
    "C96_next",
    "C96_same",
    "C96_month",
    "C96_month_place"
   ],
   "note": "The pillar of a lunar month is the one LunarMonth.getGanZhi gives, which is a month ahead after a leap month (C60)."
  },
  {
   "property": "C97",
   "status": "proved",
   "theorems": [
    "C97_month",
    "C97_place"
   ],
   "note": "For the functions of the library with sin and cos accurate to 2^-50 (Libm.Good). From the solstice at either end of the twelve or thirteen months, with months of 29 or 30 days (C86) and principal terms within 4.6 days of a mean line."
  },
  {
   "property": "C98",
   "status": "proved",
   "theorems": [
    "C98_luck",
    "C98_childhood"
   ],
   "note": "The years before luck starts have no pillar (getGanZhi is empty), yet DaYun.getXun reports 甲子 and getXunKong 戌亥 for them: C98_childhood. Periods beyond the sixtieth: see C51 (getGanZhi raises going forward)."
  },
  {
   "property": "C99",
   "status": "proved",
   "theorems": [
    "C99_parts",
    "C99_chart_parts",
    "C99_text",
    "C99_sect",
    "C99_convert_time",
    "C99_time",
    "C99_library"
   ],
   "note": "EightChar texts for lunar dates with proper indices (Lunar.Proper, proved for every date of an almanac); C99_library for the functions of the library with sin and cos accurate to 2^-50."
  },
  {
   "property": "C100",
   "status": "partial",
   "theorems": [
    "C100_other",
    "C100_once",
    "C100_every_year_partial",
    "C100_violated_short_month",
    "C100_tao_midnight",
    "C100_foto_text",
    "C100_foto_text_distinct",
    "C100_tao_text",
    "C100_tao_text_distinct",
    "C100_foto_festival_text",
    "C100_foto_festival_name",
    "C100_tao_festival_text",
    "C100_tao_festival_name"
   ],
   "note": "False for anniversaries on a thirtieth day: in a year whose ninth month has 29 days 药师琉璃光佛圣诞 is on no day (C100_violated_short_month, shown for 2024 in the sample almanac). All others come every year."
  },
  {
   "property": "C101",
   "status": "partial",
   "theorems": [
    "C101_total",
    "C101_data",
    "C101_fixed_partial",
    "C101_violated_fixed",
    "C101_weekend_partial",
    "C101_violated_weekend",
    "C101_year",
    "C101_month",
    "C101_by_target_partial",
    "C101_violated_by_target",
    "C101_next_work",
    "C101_fix_set",
    "C101_fix_remove"
   ],
   "note": "False in three places of the data of HolidayUtil.py 13: getHolidaysByTarget stops at a record of another festival, so for the National Days 2014, 2015 and 2017 it returns 4 records and omits the first of October itself; the records of 2014-10-04 and 2015-10-04 name 国庆节 with a festival day of 4 October; 2012-05-02 (Wednesday) and 2012-10-08 (Monday) are marked as shifted working days. The other records satisfy the statements."
  },
  {
   "property": "C102",
   "status": "proved",
   "theorems": [
    "C102_holidays",
    "C102_holiday_of_day",
    "C102_nines",
    "C102_dog_days",
    "C102_lunar_years"
   ],
   "note": "For holidays made by other tables the condition is that day and name have no space and the name does not end in 休."
  },
  {
   "property": "C103",
   "status": "partial",
   "theorems": [
    "C103_corrections_partial",
    "C103_undo",
    "C103_violated_twice"
   ],
   "note": "Partial: corrections of years ending in 0 to 3 are not covered (a record text may occur across the border of two others there, as in C27_violated); two corrections of one new day in one call leave the first in force (C103_violated_twice)."
  },
  {
   "property": "C104",
   "status": "proved",
   "theorems": [
    "C104_month",
    "C104_after_ten",
    "C104_next"
   ],
   "note": ""
  },
  {
   "property": "C105",
   "status": "proved",
   "theorems": [
    "C105_tables",
    "C105_between",
    "C105_step",
    "C105_year"
   ],
   "note": ""
  },
  {
   "property": "C106",
   "status": "proved",
   "theorems": [
    "C106_month",
    "C106_time"
   ],
   "note": ""
  },
  {
   "property": "C107",
   "status": "proved",
   "theorems": [
    "C107_pillars",
    "C107_sparse",
    "C107_unique",
    "C107_list",
    "C107_found"
   ],
   "note": ""
  },
  {
   "property": "C108",
   "status": "proved",
   "theorems": [
    "C108_order",
    "C108_dates"
   ],
   "note": ""
  },
  {
   "property": "C109",
   "status": "proved",
   "theorems": [
    "C109_anniversary",
    "C109_exists"
   ],
   "note": ""
  },
  {
   "property": "C110",
   "status": "proved",
   "theorems": [
    "C110_fu",
    "C110_nines",
    "C110_new_year",
    "C110_summer"
   ],
   "note": ""
  },
  {
   "property": "C111",
   "status": "proved",
   "theorems": [
    "C111_stands",
    "C111_fifteen"
   ],
   "note": ""
  },
  {
   "property": "C112",
   "status": "partial",
   "theorems": [
    "C112_turns",
    "C112_step_partial",
    "C112_new_year_partial",
    "C112_new_year_violated"
   ],
   "note": "Violated at some New Years: when the turning days of summer and winter are 240 days apart and the latter lies in January, the first days of January are counted back from it and the last days of December forward from summer (31 December 2008 has the fourth star, 1 January 2009 the ninth): C112_new_year_violated. Proved for all pairs of days within a civil year (C112_step_partial) and over New Year when the turns are 180 days apart (C112_new_year_partial)."
  },
  {
   "property": "C113",
   "status": "proved",
   "theorems": [
    "C113_pentads"
   ],
   "note": ""
  },
  {
   "property": "C114",
   "status": "partial",
   "theorems": [
    "C114_hours_partial",
    "C114_late_hour_violated"
   ],
   "note": "Proved for all moments before 23:00 (C114_hours_partial). C114_late_hour_violated: from 23:00 to midnight the claim fails on every day, since the star is counted from the branch of the ending day while the hour pillar is that of the double-hour of midnight."
  },
  {
   "property": "C115",
   "status": "proved",
   "theorems": [
    "C115_double_hour",
    "C115_day"
   ],
   "note": ""
  },
  {
   "property": "C116",
   "status": "proved",
   "theorems": [
    "C116_eight",
    "C116_before_23",
    "C116_from_23",
    "C116_double_hour",
    "C116_kept",
    "C116_made"
   ],
   "note": ""
  },
  {
   "property": "C117",
   "status": "proved",
   "theorems": [
    "C117_days",
    "C117_same_day",
    "C117_solstice",
    "C117_leap_rule",
    "C117_recent_days",
    "C117_recent_solstice",
    "C117_recent_leap_rule"
   ],
   "note": ""
  },
  {
   "property": "C118",
   "status": "proved",
   "theorems": [
    "C118_longitude",
    "C118_forward",
    "C118_instant",
    "C118_terms"
   ],
   "note": ""
  },
  {
   "property": "C119",
   "status": "proved",
   "theorems": [
    "C119_found",
    "C119_new_moons",
    "C119_age",
    "C119_phase"
   ],
   "note": ""
  },
  {
   "property": "C120",
   "status": "proved",
   "theorems": [
    "C120_between",
    "C120_term",
    "C120_month",
    "C120_month_of_sun",
    "C120_year"
   ],
   "note": ""
  },
  {
   "property": "C121",
   "status": "proved",
   "theorems": [
    "C121_sign",
    "C121_sign_far",
    "C121_sign_of_sun"
   ],
   "note": ""
  },
  {
   "property": "C122",
   "status": "proved",
   "theorems": [
    "C122_pentad"
   ],
   "note": ""
  },
  {
   "property": "C123",
   "status": "proved",
   "theorems": [
    "C123_month",
    "C123_seasons"
   ],
   "note": ""
  },
  {
   "property": "C124",
   "status": "proved",
   "theorems": [
    "C124_share",
    "C124_nineteen",
    "C124_never_twice",
    "C124_within_four"
   ],
   "note": ""
  },
  {
   "property": "C125",
   "status": "proved",
   "theorems": [
    "C125_names",
    "C125_named"
   ],
   "note": ""
  },
  {
   "property": "C126",
   "status": "proved",
   "theorems": [
    "C126_months",
    "C126_days",
    "C126_new_year",
    "C126_seven"
   ],
   "note": ""
  },
  {
   "property": "C127",
   "status": "proved",
   "theorems": [
    "C127_once",
    "C127_sixty"
   ],
   "note": ""
  }
 ]
}