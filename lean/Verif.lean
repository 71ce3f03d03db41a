import Verif.Model.Main
import Verif.Props.P01_Components
import Verif.Props.P02_Results
import Verif.Props.P03_Calendar
import Verif.Props.P04_Overlap
import Verif.Props.P05_TimeZone
import Verif.Props.P06_Merge
import Verif.Props.P07_Range
import Verif.Props.P08_Execute
import Verif.Props.P09_History
import Verif.Props.P10_Holidays
import Verif.Props.P11_BlackFriday
import Verif.Props.P12_Casual
import Verif.Props.P13_Iso
import Verif.Props.P14_Program
import Verif.Props.P15_Tags
import Verif.Props.P16_Clock
import Verif.Props.P17_ClockPhrases
import Verif.Props.P18_ClockRanges
import Verif.Props.P19_EndToEnd
import Verif.Props.P20_Phrases
import Verif.Props.P21_DeadlineText
import Verif.Props.P22_Deadline
import Verif.Props.P23_DeadlinePrinted
import Verif.Props.P24_Week
import Verif.Props.P25_Relative
import Verif.Props.P26_Weekday
import Verif.Props.P27_Ordinals
import Verif.Props.P28_Nearest
import Verif.Props.P29_MonthNames
import Verif.Props.P30_MonthPhrases
import Verif.Props.P31_MonthDayPhrases
import Verif.Props.P32_MonthWitnesses
import Verif.Props.P33_AgoLater
import Verif.Props.P34_AgoLaterDates
import Verif.Props.P35_DayRanges
import Verif.Props.P36_WeekdayComponent
import Verif.Props.P37_MergeDetails
import Verif.Props.P38_RelativeHalves
import Verif.Props.P39_MilitaryTimes
import Verif.Props.P40_ClockPrinted
import Verif.Props.P41_NewYearsEve
import Verif.Props.P42_Arguments
import Verif.Props.P43_TwoMentions
import Verif.Lemmas.Seq
import Verif.Props.P44_IsoRanges
import Verif.Props.P45_DateAndTime
import Verif.Props.P46_IsoDateTime
import Verif.Spec.Alive
import Verif.Lemmas.Branches
import Verif.Props.P47_Alive
import Verif.Props.P48_Lives
import Verif.Props.P49_Words
import Verif.Props.P50_NoDigits
import Verif.Props.P51_NoDigitsWitnesses
import Verif.Spec.ZoneNames
import Verif.Props.P52_ZoneNames
import Verif.Props.P53_FromNow
import Verif.Props.P54_WordAndTime
import Verif.Lemmas.CapLang
import Verif.Spec.Ordinary
import Verif.Props.P55_OrdinaryParts
import Verif.Props.P56_Ordinary
import Verif.Props.P57_OrdinaryWitnesses
import Verif.Props.P58_ZoneClock
import Verif.Spec.DateWords
import Verif.Lemmas.Keys
import Verif.Props.P59_NoDateWords
import Verif.Lemmas.Sentence
import Verif.Props.P60_CasualInText
import Verif.Props.P61_IsoInText
import Verif.Lemmas.Tokens
import Verif.Props.P62_PhraseInText
import Verif.Props.P63_WeekInText
import Verif.Props.P64_HolidayInText
import Verif.Props.P65_ClockInText
import Verif.Spec.Numbers
import Verif.Props.P66_NotATime
import Verif.Props.P67_MonthInText
import Verif.Props.P68_MonthDayInText
import Verif.Props.P69_Instances
import Verif.Props.P70_MonthYearInText
import Verif.Props.P71_DayAlone
import Verif.Props.P72_TimeAndDay
import Verif.Props.P73_Parts
import Verif.Props.P74_TwoDays
import Verif.Props.P75_FirstMention
import Verif.Props.P76_ManyDays
import Verif.Props.P77_ManyMentions
import Verif.Props.P78_ManyMonths
import Verif.Props.P79_DaysAndMonths
import Verif.Props.P80_DaysThenMonths
import Verif.Props.P81_ManyParts
