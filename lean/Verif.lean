import Verif.Model.BaZi
import Verif.Model.ChartState
import Verif.Model.EightChar
import Verif.Model.F64
import Verif.Model.Festival
import Verif.Model.FloatLike
import Verif.Model.FotoTables
import Verif.Model.FotoTao
import Verif.Model.Holiday
import Verif.Model.HolidayData
import Verif.Model.JieQi
import Verif.Model.Lunar
import Verif.Model.LunarDay
import Verif.Model.LunarTime
import Verif.Model.LunarUtil
import Verif.Model.LunarYear
import Verif.Model.MoreTables
import Verif.Model.NineStar
import Verif.Model.NineStarTables
import Verif.Model.Py
import Verif.Model.ShouXing
import Verif.Model.ShouXingTables
import Verif.Model.Solar
import Verif.Model.SolarParts
import Verif.Model.SolarUtil
import Verif.Model.Tables
import Verif.Model.TaoTables
import Verif.Model.Texts
import Verif.Model.YearCache
import Verif.Model.YiJi
import Verif.Model.YiJiTables
import Verif.Model.Yun
import Verif.Model.Zao
import Verif.Proof.Aff
import Verif.Proof.AffSound
import Verif.Proof.Almanac
import Verif.Proof.BaZi
import Verif.Proof.Blocks
import Verif.Proof.CeilDiv
import Verif.Proof.Closure
import Verif.Proof.Corrections
import Verif.Proof.CosSound
import Verif.Proof.Cycles
import Verif.Proof.DayNo
import Verif.Proof.EightChar
import Verif.Proof.Ephem.Almanac
import Verif.Proof.Ephem.Astro
import Verif.Proof.Ephem.Bins
import Verif.Proof.Ephem.Dates
import Verif.Proof.Ephem.Days
import Verif.Proof.Ephem.Facts
import Verif.Proof.Ephem.Gaps
import Verif.Proof.Ephem.Keys
import Verif.Proof.Ephem.Leap
import Verif.Proof.Ephem.Made
import Verif.Proof.Ephem.MonthPillar
import Verif.Proof.Ephem.Names
import Verif.Proof.Ephem.NewYear
import Verif.Proof.Ephem.Own
import Verif.Proof.Ephem.Range
import Verif.Proof.Ephem.Rounding
import Verif.Proof.Ephem.Summer
import Verif.Proof.Ephem.Terms
import Verif.Proof.F64
import Verif.Proof.FromJulianDay
import Verif.Proof.FromJulianDay2
import Verif.Proof.High.Check
import Verif.Proof.High.Data
import Verif.Proof.High.Facts
import Verif.Proof.High.Gap
import Verif.Proof.High.Lines
import Verif.Proof.High.Months
import Verif.Proof.High.Moon
import Verif.Proof.High.Pts0
import Verif.Proof.High.Pts1
import Verif.Proof.High.Pts2
import Verif.Proof.High.Pts3
import Verif.Proof.High.Sun0
import Verif.Proof.High.Sun1
import Verif.Proof.High.Sun2
import Verif.Proof.High.Sun3
import Verif.Proof.High.Table
import Verif.Proof.High.Years
import Verif.Proof.Holiday
import Verif.Proof.Holiday2
import Verif.Proof.HolidayData
import Verif.Proof.JieQi
import Verif.Proof.JulianDay
import Verif.Proof.JulianDay2
import Verif.Proof.Keys
import Verif.Proof.Low.Calc
import Verif.Proof.Low.Check
import Verif.Proof.Low.Codes
import Verif.Proof.Low.Data
import Verif.Proof.Low.Days
import Verif.Proof.Low.Moon0
import Verif.Proof.Low.Moon1
import Verif.Proof.Low.Moon2
import Verif.Proof.Low.Moon3
import Verif.Proof.Low.Terms
import Verif.Proof.Low.Year
import Verif.Proof.Low.Years
import Verif.Proof.LunarDay
import Verif.Proof.LunarMonthNext
import Verif.Proof.LunarYear
import Verif.Proof.Lunation.Age
import Verif.Proof.Lunation.Days
import Verif.Proof.Lunation.Delta
import Verif.Proof.Lunation.Groups
import Verif.Proof.Lunation.Month
import Verif.Proof.Lunation.Near
import Verif.Proof.Lunation.Newton
import Verif.Proof.Lunation.Nineteen
import Verif.Proof.Lunation.Real
import Verif.Proof.Lunation.Roots
import Verif.Proof.Lunation.Second
import Verif.Proof.Lunation.Series
import Verif.Proof.Lunation.Steps
import Verif.Proof.Lunation.Sun
import Verif.Proof.Lunation.Table
import Verif.Proof.Lunation.Times
import Verif.Proof.Lunation.Year
import Verif.Proof.Lunation.YearDays
import Verif.Proof.MoonBlock
import Verif.Proof.Packed
import Verif.Proof.Pillars
import Verif.Proof.RowTables
import Verif.Proof.Rows
import Verif.Proof.SampleAlmanac
import Verif.Proof.SampleSun
import Verif.Proof.SolarBasic
import Verif.Proof.SolarParts
import Verif.Proof.Str
import Verif.Proof.SunDay.Between
import Verif.Proof.SunDay.Clear
import Verif.Proof.SunDay.Days
import Verif.Proof.SunDay.Delta
import Verif.Proof.SunDay.DeltaEarly
import Verif.Proof.SunDay.Float
import Verif.Proof.SunDay.Near0
import Verif.Proof.SunDay.Near1
import Verif.Proof.SunDay.Near2
import Verif.Proof.SunDay.Near3
import Verif.Proof.SunDay.Newton
import Verif.Proof.SunDay.Point
import Verif.Proof.SunDay.Real
import Verif.Proof.SunDay.Recent
import Verif.Proof.SunDay.Root
import Verif.Proof.SunDay.Steps
import Verif.Proof.SunDay.Table
import Verif.Proof.SunDay.Times
import Verif.Proof.Texts
import Verif.Proof.TrigSound
import Verif.Proof.WeekNav
import Verif.Proof.WorkDay
import Verif.Proof.YearCache
import Verif.Proof.YiJi
import Verif.Proof.YiJiRecords
import Verif.Proof.Yun
import Verif.Props.BaZi
import Verif.Props.BuiltIn
import Verif.Props.ChartMoments
import Verif.Props.ChartState
import Verif.Props.Charts
import Verif.Props.Constancy
import Verif.Props.Corrections
import Verif.Props.DailyCycles
import Verif.Props.DayLore
import Verif.Props.DayStars
import Verif.Props.DayText
import Verif.Props.EightChar
import Verif.Props.Everyday
import Verif.Props.Festivals
import Verif.Props.FotoTao
import Verif.Props.GanZhi
import Verif.Props.Holiday
import Verif.Props.HourStars
import Verif.Props.JulianDay
import Verif.Props.LeapRule
import Verif.Props.LeapYears
import Verif.Props.Library
import Verif.Props.LibraryTimes
import Verif.Props.Luck
import Verif.Props.LunarDate
import Verif.Props.LunarOrder
import Verif.Props.LunarTime
import Verif.Props.LunarYear
import Verif.Props.Metonic
import Verif.Props.MonthLength
import Verif.Props.MonthPillar
import Verif.Props.MonthSun
import Verif.Props.MoonAge
import Verif.Props.MoonNames
import Verif.Props.NamedDays
import Verif.Props.NewYear
import Verif.Props.NineStar
import Verif.Props.Observances
import Verif.Props.PentadSun
import Verif.Props.Pentads
import Verif.Props.PeriodText
import Verif.Props.Pillars
import Verif.Props.Positions
import Verif.Props.SeasonDates
import Verif.Props.ShuJiuFu
import Verif.Props.SolarNav
import Verif.Props.SolarParts
import Verif.Props.SolarText
import Verif.Props.Stars
import Verif.Props.SunPillar
import Verif.Props.SunPlace
import Verif.Props.TaoDays
import Verif.Props.TaoYear
import Verif.Props.TermDates
import Verif.Props.TermDays
import Verif.Props.TermGaps
import Verif.Props.TermWalk
import Verif.Props.Terms
import Verif.Props.Words
import Verif.Props.WorkDay
import Verif.Props.YearCache
import Verif.Props.YearLength
import Verif.Props.YiJi
import Verif.Props.Yun
import Verif.Props.Zao
import Verif.Props.Zodiac
import Verif.Spec.Almanac
import Verif.Spec.Calendar
import Verif.Spec.DayLore
import Verif.Spec.GanZhi
import Verif.Spec.Holidays
import Verif.Spec.JulianDate
import Verif.Spec.LeapRule
import Verif.Spec.Libm
import Verif.Spec.LunarFestivals
import Verif.Spec.LunarMonths
import Verif.Spec.Mansions
import Verif.Spec.MoonAge
import Verif.Spec.Packed
import Verif.Spec.SampleAlmanac
import Verif.Spec.SolarFest
import Verif.Spec.SunAlmanac
import Verif.Spec.SunPlace
import Verif.Spec.TermDates
import Verif.Spec.TermDays
import Verif.Spec.Terms
import Verif.Spec.Threads
import Verif.Spec.Weeks
import Verif.Spec.Words
import Verif.Spec.WorkDays
import Verif.Spec.Zodiac
