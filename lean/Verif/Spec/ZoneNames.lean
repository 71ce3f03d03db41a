import Verif.Base.Text
/-!
# Specification: what common time-zone abbreviations mean

Written down from general knowledge (not from the program): hours and minutes east (`false`) or west (`true`) of UTC, in the customary
`+hh:mm` / `-hh:mm` reading. Only abbreviations whose meaning is not disputed.
-/
namespace Chrono.Spec

/-- West of UTC?, hours, minutes. -/
abbrev Meridian := Bool × Nat × Nat

/-- Minutes east of UTC: `-09:30` means nine and a half hours west. -/
def Meridian.minutes : Meridian → Int
  | (true, h, m) => -(60 * (h : Int) + m)
  | (false, h, m) => 60 * (h : Int) + m

/-- The usual meaning. -/
def usualZones : List (Text × Meridian) :=
  [ -- universal time, Europe
    (txt!"UTC", false, 0, 0), (txt!"GMT", false, 0, 0), (txt!"WET", false, 0, 0), (txt!"WEST", false, 1, 0), (txt!"CET", false, 1, 0),
    (txt!"CEST", false, 2, 0), (txt!"EET", false, 2, 0), (txt!"EEST", false, 3, 0), (txt!"MEZ", false, 1, 0), (txt!"MESZ", false, 2, 0),
    -- North America
    (txt!"EST", true, 5, 0), (txt!"EDT", true, 4, 0), (txt!"CDT", true, 5, 0), (txt!"MDT", true, 6, 0), (txt!"MST", true, 7, 0),
    (txt!"PST", true, 8, 0), (txt!"PDT", true, 7, 0), (txt!"AKST", true, 9, 0), (txt!"AKDT", true, 8, 0), (txt!"HAST", true, 10, 0),
    (txt!"HADT", true, 9, 0), (txt!"ADT", true, 3, 0), (txt!"NST", true, 3, 30), (txt!"NDT", true, 2, 30), (txt!"HNT", true, 3, 30),
    (txt!"HAT", true, 2, 30), (txt!"HNE", true, 5, 0), (txt!"HAE", true, 4, 0), (txt!"HNP", true, 8, 0), (txt!"HAP", true, 7, 0),
    (txt!"PMST", true, 3, 0), (txt!"PMDT", true, 2, 0),
    -- South America
    (txt!"ART", true, 3, 0), (txt!"BRT", true, 3, 0), (txt!"BRST", true, 2, 0), (txt!"BOT", true, 4, 0), (txt!"CLT", true, 4, 0),
    (txt!"CLST", true, 3, 0), (txt!"COT", true, 5, 0), (txt!"ECT", true, 5, 0), (txt!"PET", true, 5, 0), (txt!"UYT", true, 3, 0),
    (txt!"PYT", true, 4, 0), (txt!"GFT", true, 3, 0), (txt!"SRT", true, 3, 0), (txt!"GYT", true, 4, 0), (txt!"FNT", true, 2, 0),
    -- Africa
    (txt!"WAT", false, 1, 0), (txt!"CAT", false, 2, 0), (txt!"SAST", false, 2, 0), (txt!"EAT", false, 3, 0), (txt!"CVT", true, 1, 0),
    -- Asia
    (txt!"IRST", false, 3, 30), (txt!"IRDT", false, 4, 30), (txt!"AFT", false, 4, 30), (txt!"PKT", false, 5, 0), (txt!"UZT", false, 5, 0),
    (txt!"TJT", false, 5, 0), (txt!"TMT", false, 5, 0), (txt!"MVT", false, 5, 0), (txt!"IST", false, 5, 30), (txt!"NPT", false, 5, 45),
    (txt!"BTT", false, 6, 0), (txt!"KGT", false, 6, 0), (txt!"MMT", false, 6, 30), (txt!"CCT", false, 6, 30), (txt!"ICT", false, 7, 0),
    (txt!"WIB", false, 7, 0), (txt!"CXT", false, 7, 0), (txt!"SGT", false, 8, 0), (txt!"HKT", false, 8, 0), (txt!"PHT", false, 8, 0),
    (txt!"MYT", false, 8, 0), (txt!"WITA", false, 8, 0), (txt!"BNT", false, 8, 0), (txt!"JST", false, 9, 0), (txt!"KST", false, 9, 0),
    (txt!"WIT", false, 9, 0), (txt!"TLT", false, 9, 0), (txt!"PWT", false, 9, 0), (txt!"GET", false, 4, 0), (txt!"AZT", false, 4, 0),
    -- Australia, Pacific
    (txt!"AWST", false, 8, 0), (txt!"ACST", false, 9, 30), (txt!"ACDT", false, 10, 30), (txt!"AEST", false, 10, 0), (txt!"AEDT", false, 11, 0),
    (txt!"PGT", false, 10, 0), (txt!"NCT", false, 11, 0), (txt!"SBT", false, 11, 0), (txt!"VUT", false, 11, 0), (txt!"PONT", false, 11, 0),
    (txt!"NZST", false, 12, 0), (txt!"NZDT", false, 13, 0), (txt!"FJT", false, 12, 0), (txt!"TVT", false, 12, 0), (txt!"MHT", false, 12, 0),
    (txt!"GILT", false, 12, 0), (txt!"WFT", false, 12, 0), (txt!"PHOT", false, 13, 0), (txt!"LINT", false, 14, 0), (txt!"CKT", true, 10, 0),
    (txt!"TAHT", true, 10, 0), (txt!"MART", true, 9, 30), (txt!"GAMT", true, 9, 0), (txt!"NUT", true, 11, 0), (txt!"SST", true, 11, 0) ]

end Chrono.Spec
