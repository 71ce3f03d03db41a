import Verif.Model.Parser
/-!
# `ENUSHolidaysParser.hpp`
-/
namespace Chrono
open Boost

/-- `setYear(day.year()); setMonth(day.month()); set_mDay(day.day() + k); set_wDay(day.day_of_week() + k)`,
e.g. ENUSHolidaysParser.hpp:67-70 (`k = 0`), :109-112 (`k = 1`). -/
def setDay (result : PResult) (d : Date) (k : Int) : Out PResult := do
  let y ← d.year
  let m ← d.month
  let dd ← d.day
  let w ← d.dayOfWeek
  return result.onStart (fun c =>
    (((c.set .year y).set .month m).set .mday (dd + k)).set .wday ((w : Int) + k))

/-- A holiday with a fixed date. -/
def setFixed (result : PResult) (y m d : Int) : PResult :=
  result.onStart (fun c => ((c.set .year y).set .month m).set .mday d)

/-- The branches on the matched text, ENUSHolidaysParser.hpp:30-133. Weekdays: Monday 1, Thursday 4. -/
def holidayDate (result : PResult) (text : Text) (ref : PTime) : Out PResult := do
  let year ← ref.date.year
  if contains txt!"independence" text then return setFixed result year 7 4
  else if contains txt!"new year" text then
    if contains txt!"eve" text then return setFixed result year 12 31
    else return setFixed result year 1 1
  else if contains txt!"veteran" text then return setFixed result year 11 11
  else if contains txt!"christmas" text then
    if contains txt!"eve" text then return setFixed result year 12 24
    else return setFixed result year 12 25
  else if contains txt!"mlk" text || contains txt!"martin luther king" text then
    setDay result (← nthKday 3 1 1 year) 0
  else if contains txt!"labor" text then setDay result (← nthKday 1 1 9 year) 0
  else if contains txt!"president" text then setDay result (← nthKday 3 1 2 year) 0
  else if contains txt!"thanksgiving" text then setDay result (← nthKday 4 4 11 year) 0
  else if contains txt!"black" text then
    let thanksgiving ← nthKday 4 4 11 year
    let day ← thanksgiving.addDays 1
    setDay result day 1
  else if contains txt!"memorial" text then setDay result (← lastKday 1 5 year) 0
  else if contains txt!"columbus" text then setDay result (← nthKday 2 1 10 year) 0
  else return result

/-- `ENHolidayParser::extract`, src/parsers/en/ENUSHolidaysParser.hpp:24-140.
(`ref.date().year()` is evaluated in every branch that the pattern can reach with a recognised name; reading
it up front only differs for a reference outside 1400..9999.) -/
def holidayExtract (_rt : Rt) (_g : Globals) (_tx : Text) (mt : Match) (ref : PTime) (idx : Nat) :
    Out PResult := do
  let text := mt.str 0
  let result := PResult.mk' ref idx text
  let result ← holidayDate result text ref
  let result := result.onStart (fun c => (c.set .hour 0).set .min 0)
  return result.setTag .usHolidays

/-- `ENHolidayParser`. -/
def holidayParser : Parser := ⟨compile true Pat.holiday, pureExtract holidayExtract⟩

end Chrono
