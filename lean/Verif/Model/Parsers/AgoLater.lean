import Verif.Model.Parser
/-!
# `ENTimeAgoFormatParser.hpp`, `ENTimeLaterParser.hpp`
-/
namespace Chrono
open Boost

/-- `std::regex_match(s, std::regex("\\w"))`. -/
def isOneWordChar : Text → Bool
  | [c] => isWordB c
  | _ => false

/-- `try { x } catch (std::out_of_range&) { continue; }` around an update of a value. -/
def catchOOR {α : Type} (old : α) (x : Out α) : Out α :=
  match x with
  | .exn e => if e.isOutOfRange then .ok old else .exn e
  | y => y

/-- Apply an optional fragment. -/
def onFrag {α : Type} (f : Option FNum) (old : α) (g : FNum → Out α) : Out α :=
  match f with
  | none => .ok old
  | some v => g v

/-- Setting the components, ENTimeAgoFormatParser.hpp:61-79 and ENTimeLaterParser.hpp:65-83 (identical). -/
def setFromFragments (result : PResult) (fr : Fragments) (date : Date) (t : PTime) : Out PResult := do
  let result :=
    if fpos fr.hour || fpos fr.minute || fpos fr.second then
      result.onStart (fun c => ((c.set .hour t.hours).set .min t.minutes).set .sec t.seconds)
    else result
  if fpos fr.day || fpos fr.month || fpos fr.year || fpos fr.week then
    let d ← date.day
    let m ← date.month
    let y ← date.year
    return result.onStart (fun c => ((c.set .mday d).set .month m).set .year y)
  else
    let d ← t.date.day
    let m ← t.date.month
    let y ← t.date.year
    return result.onStart (fun c => ((c.imply .mday d).imply .month m).imply .year y)

/-- `ENTimeAgoFormatParser::extract`, src/parsers/en/ENTimeAgoFormatParser.hpp:22-83. The fragments are a
`std::map`, iterated in alphabetical order of the unit. `text` at line 27 is the matched text, so the
`substr` there may throw. -/
def timeAgoExtract (_rt : Rt) (_g : Globals) (_tx : Text) (mt : Match) (ref : PTime) (idx : Nat) :
    Out PResult := do
  let text := mt.str 0
  let result := PResult.mk' ref idx text
  let stop ← if mt.position > 0 then do
      let s ← substr text (mt.position - 1)
      pure (isOneWordChar s)
    else pure false
  if stop then return result
  else
    let fr ← match compile true Pat.timeUnit with
      | none => Out.exn .regexError
      | some r => extractFragments r ((mt.str 2).length + 1) (mt.str 2) {}
    let date := ref.date
    let t := ref
    let date ← onFrag fr.day date (fun v => do let n ← v.toInt; catchOOR date (date.addDays (-n)))
    let t ← onFrag fr.hour t (fun v => do let n ← v.toInt; pure (t.addHours (-n)))
    let t ← onFrag fr.minute t (fun v => do let n ← v.toInt; pure (t.addMinutes (-n)))
    let date ← onFrag fr.month date (fun v => do let n ← v.toInt; catchOOR date (date.addMonths (-n)))
    let t ← onFrag fr.second t (fun v => do let n ← v.toInt; pure (t.addSeconds (-n)))
    let date ← onFrag fr.week date (fun v => do let n ← v.toLong; catchOOR date (date.addDays (-(7 * n))))
    let date ← onFrag fr.year date (fun v => do let n ← v.toInt; catchOOR date (date.addMonths (-(12 * n))))
    let result ← setFromFragments result fr date t
    return result.setTag .timeAgo

/-- `ENTimeAgoFormatParser`. -/
def timeAgoParser : Parser := ⟨compile true Pat.timeAgo, pureExtract timeAgoExtract⟩

/-- `ENTimeLaterParser::extract`, src/parsers/en/ENTimeLaterParser.hpp:26-87. -/
def timeLaterExtract (_rt : Rt) (_g : Globals) (_tx : Text) (mt : Match) (ref : PTime) (idx : Nat) :
    Out PResult := do
  let text ← substr (mt.str 0) (mt.lengthOf 1)
  let result := PResult.mk' ref idx text
  let stop ← if mt.position > 0 then do
      let s ← substr text (mt.position - 1)
      pure (isOneWordChar s)
    else pure false
  if stop then return result
  else
    let fr ← match compile true Pat.timeUnit with
      | none => Out.exn .regexError
      | some r => extractFragments r ((mt.str 2).length + 1) (mt.str 2) {}
    let date := ref.date
    let t := ref
    let date ← onFrag fr.day date (fun v => do let n ← v.toInt; date.addDays n)
    let t ← onFrag fr.hour t (fun v => do let n ← v.toInt; pure (t.addHours n))
    let t ← onFrag fr.minute t (fun v => do let n ← v.toInt; pure (t.addMinutes n))
    let date ← onFrag fr.month date (fun v => do let n ← v.toInt; date.addMonths n)
    let t ← onFrag fr.second t (fun v => do let n ← v.toInt; pure (t.addSeconds n))
    let date ← onFrag fr.week date (fun v => do let n ← v.toLong; date.addDays (7 * n))
    let date ← onFrag fr.year date (fun v => do let n ← v.toInt; date.addMonths (12 * n))
    let result ← setFromFragments result fr date t
    return result.setTag .timeLater

/-- `ENTimeLaterParser`. -/
def timeLaterParser : Parser := ⟨compile true Pat.timeLater, pureExtract timeLaterExtract⟩

end Chrono
