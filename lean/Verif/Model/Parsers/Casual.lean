import Verif.Model.Parser
/-!
# `ENCasualDateParser.hpp`, `ENCasualTimeParser.hpp`
-/
namespace Chrono
open Boost

/-- The cases of ENCasualDateParser.hpp:30-53: the result with the time of day, and `tmp`, whose date is reported.
`lastNight` is the outcome of `regex_search(text, regex("last\\s*night"))`. -/
def casualDay (result : PResult) (text : Text) (ref : PTime) (lastNight : Bool) : PResult × PTime :=
  if findsAtZero txt!"tonight" text then
    (result.onStart (·.imply .hour 22), ref)
  else if findsAtZero txt!"tomorrow" text || findsAtZero txt!"tmr" text then
    (result, if ref.hours > 0 then ref.addDays 1 else ref)
  else if findsAtZero txt!"yesterday" text then
    (result.onStart (·.imply .hour ref.hours), ref.addDays (-1))
  else if lastNight then
    (result.onStart (·.imply .hour 0), if ref.hours > 6 then ref.addDays (-1) else ref)
  else if text = txt!"now" then
    (result.onStart (fun c => ((c.set .hour ref.hours).set .min ref.minutes).set .sec ref.seconds), ref)
  else (result, ref)

/-- `ENCasualDateParser::extract`, src/parsers/en/ENCasualDateParser.hpp:22-63. -/
def casualDateExtract (_rt : Rt) (_g : Globals) (_tx : Text) (mt : Match) (ref : PTime) (idx : Nat) :
    Out PResult := do
  let text := mt.str 0
  let result := PResult.mk' ref idx text
  let lastNight ← searches true Pat.lastNight text
  let p := casualDay result text ref lastNight
  let y ← p.2.date.year
  let m ← p.2.date.month
  let d ← p.2.date.day
  let result := p.1.onStart (fun c => ((c.set .year y).set .month m).set .mday d)
  return result.setTag .casualDate

/-- `ENCasualDateParser`. -/
def casualDateParser : Parser := ⟨compile true Pat.casualDate, pureExtract casualDateExtract⟩

/-- `ENCasualTimeParser::extract`, src/parsers/en/ENCasualTimeParser.hpp:23-57. -/
def casualTimeExtract (_rt : Rt) (_g : Globals) (_tx : Text) (mt : Match) (ref : PTime) (idx : Nat) :
    Out PResult := do
  let text := mt.str 0
  let result := PResult.mk' ref idx text
  let timeMatch := if (mt.str 4).isEmpty then 3 else 4
  let subs := toLower (mt.str timeMatch)
  let result :=
    if subs = txt!"afternoon" then result.onStart (·.imply .hour 15)
    else if subs = txt!"evening" ∨ subs = txt!"night" then result.onStart (·.imply .hour 20)
    else if subs = txt!"morning" then result.onStart (·.imply .hour 6)
    else if subs = txt!"noon" then result.onStart (·.imply .hour 12)
    else result
  let y ← ref.date.year
  let m ← ref.date.month
  let d ← ref.date.day
  let w ← ref.date.dayOfWeek
  let result := result.onStart (fun c =>
    ((((c.imply .year y).imply .month m).imply .mday d).imply .wday w).imply .min ref.minutes)
  return result.setTag .casualTime

/-- `ENCasualTimeParser`. -/
def casualTimeParser : Parser := ⟨compile true Pat.casualTime, pureExtract casualTimeExtract⟩

end Chrono
