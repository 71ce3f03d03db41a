import Verif.Model.Parser
/-!
# `ENDayOfTheWeekParser.hpp`
-/
namespace Chrono
open Boost

/-- The date chosen by `updateParsedComponent`, ENDayOfTheWeekParser.hpp:38-99, and `start_fixed`.
`offset` is the weekday asked for (0 = Sunday). -/
def weekdayDate (ref : PTime) (offset : Nat) (modifier : Text) : Out (Date × Bool) := do
  let start := ref.date
  let dow ← start.dayOfWeek
  if modifier = txt!"last" ∨ modifier = txt!"past" then
    let tmp ← start.addDays (-7)
    let d ← if offset < dow then firstBefore offset tmp
            else if offset > dow then firstAfter offset tmp else pure tmp
    return (d, true)
  else if modifier = txt!"next" then
    let tmp ← start.addDays 7
    let d ← if offset < dow then firstBefore offset tmp
            else if offset > dow then firstAfter offset tmp else pure tmp
    return (d, true)
  else if modifier = txt!"this" ∨ modifier = [] then
    let d ← if offset = dow then pure start
            else if offset < dow then firstBefore offset start else firstAfter offset start
    return (d, false)
  else
    let w := weekdayOffset.get modifier
    let d ← if dow = w then pure start
            else if dow < w then firstAfter w start else firstBefore w start
    return (d, false)

/-- `updateParsedComponent`, src/parsers/en/ENDayOfTheWeekParser.hpp:35-125. (`resOffset` is never special.) -/
def updateParsedComponent (res : PResult) (ref : PTime) (offset : Nat) (modifier timing : Text) :
    Out PResult := do
  let (d, fixed) ← weekdayDate ref offset modifier
  let dd ← d.day
  let m ← d.month
  let y ← d.year
  let res :=
    if fixed then res.onStart (fun c => ((c.set .mday dd).set .month m).set .year y)
    else res.onStart (fun c => ((c.imply .mday dd).imply .month m).imply .year y)
  let res :=
    if timing = txt!"earlier" ∨ timing = txt!"early" then
      res.onStart (fun c => (c.imply .hour 6).imply .min 1)
    else if timing = txt!"late" then
      res.onStart (fun c => (c.imply .hour 20).imply .min 1)
    else res
  return res.setTag .dayOfTheWeek

/-- `ENDayOfWeekParser::extract`, src/parsers/en/ENDayOfTheWeekParser.hpp:127-153. -/
def dayOfWeekExtract (_rt : Rt) (_g : Globals) (_tx : Text) (mt : Match) (ref : PTime) (idx : Nat) :
    Out PResult := do
  let timing := mt.str 2
  let pre := mt.str 3
  let post := mt.str 5
  let result := PResult.mk' ref idx (mt.str 0)
  let offset := weekdayOffset.get (mt.str 4)
  let norm := if pre.isEmpty then post else if post.isEmpty then pre else []
  updateParsedComponent result ref offset norm timing

/-- `ENDayOfWeekParser`. -/
def dayOfWeekParser : Parser := ⟨compile true Pat.dayOfWeek, pureExtract dayOfWeekExtract⟩

end Chrono
