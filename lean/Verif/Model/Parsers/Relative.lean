import Verif.Model.Parsers.Deadline
/-!
# `ENRelativeDateFormatParser.hpp` (not used by `main`, but part of the library and tested)
-/
namespace Chrono
open Boost

/-- The number, ENRelativeDateFormatParser.hpp:35-58; `none`: the caught `logic_error`. -/
def relativeNumber (g : Globals) (label : Text) : Out (Option FNum) :=
  match WordMap.lookup g label with
  | some n => .ok (some (FNum.ofNat n))
  | none =>
    if label.isEmpty then .ok (some (.int 1))
    else if contains txt!"few" label then .ok (some (.int 3))
    else if contains txt!"half" label then .ok (some .half)
    else
      match stof label with
      | .ok n => .ok (some n)
      | .exn e => if e.isLogicError then .ok none else .exn e
      | .ub => .ub
      | .unspec => .unspec
      | .diverge => .diverge

/-- "this ...", ENRelativeDateFormatParser.hpp:61-114 (after the check that there is no number). -/
def relativeThis (result : PResult) (ref : PTime) (unit : Text) : Out PResult := do
  let result := result.setTag .relative
  if ← searches true Pat.dwmy unit then
    if contains txt!"week" unit then
      let w ← ref.date.dayOfWeek
      let first ← ref.date.addDays (-(w : Int))
      let last ← ref.date.addDays (6 - (w : Int))
      let fd ← first.day
      let fm ← first.month
      let fy ← first.year
      let ld ← last.day
      let lm ← last.month
      let ly ← last.year
      let result := result.onStart (fun c => ((c.imply .mday fd).imply .month fm).imply .year fy)
      let result := result.onEnd (fun c => ((c.imply .mday ld).imply .month lm).imply .year ly)
      return result.makeEndValid
    else if contains txt!"month" unit then
      let e ← ref.date.ymd
      let lastDay := endOfMonthDay e.year e.month
      let result := result.onStart (fun c => ((c.imply .mday 1).set .month e.month).set .year e.year)
      let result := result.onEnd (fun c => ((c.imply .mday lastDay).set .month e.month).set .year e.year)
      return result.makeEndValid
    else if contains txt!"year" unit then
      let y ← ref.date.year
      let result := result.onStart (fun c => ((c.imply .mday 1).imply .month 1).set .year y)
      let result := result.onEnd (fun c => ((c.imply .mday 31).imply .month 12).set .year y)
      return result.makeEndValid
    else return result
  else return result

/-- Sign of the offset: `next` adds, anything else (`last`, `past`) subtracts. -/
def relSign (modifier : Text) (n : Int) : Int := if modifier = txt!"next" then n else -n

/-- The date branch, ENRelativeDateFormatParser.hpp:117-214. -/
def relativeDate (result : PResult) (ref : PTime) (modifier unit : Text) (num : FNum) : Out PResult := do
  let result := result.setTag .relative
  let tmpDate := ref.date
  if contains txt!"day" unit then
    if num.isWhole then
      implyDate result (← tmpDate.addDays (relSign modifier (← num.toInt)))
    else
      let t := ref.addHours (relSign modifier 12)
      let result ← implyDate result t.date
      return result.onStart (fun c => (c.imply .hour t.hours).imply .min t.minutes)
  else if contains txt!"week" unit then
    if num.isWhole then implyDate result (← tmpDate.addDays (relSign modifier (7 * (← num.toInt))))
    else implyDate result (← tmpDate.addDays (relSign modifier 3))
  else if contains txt!"month" unit then
    if num.isWhole then implyDate result (← tmpDate.addMonths (relSign modifier (← num.toInt)))
    else implyDate result (← tmpDate.addDays (relSign modifier 15))
  else if contains txt!"year" unit then
    if num.isWhole then implyDate result (← tmpDate.addMonths (relSign modifier (12 * (← num.toInt))))
    else implyDate result (← tmpDate.addMonths (relSign modifier 6))
  else implyDate result tmpDate

/-- The time branch, ENRelativeDateFormatParser.hpp:218-260. -/
def relativeTime (ref : PTime) (modifier unit : Text) (num : FNum) : Out PTime := do
  if contains txt!"hour" unit then
    if num.isWhole then return ref.addHours (relSign modifier (← num.toInt))
    else return ref.addMinutes (relSign modifier 30)
  else if contains txt!"minute" unit then
    if num.isWhole then return ref.addMinutes (relSign modifier (← num.toInt))
    else return ref.addSeconds (relSign modifier 30)
  else if contains txt!"second" unit then
    return ref.addSeconds (relSign modifier (← num.toInt))
  else return ref

/-- `ENRelativeDateFormatParser::extract`, src/parsers/en/ENRelativeDateFormatParser.hpp:27-271. -/
def relativeExtract (_rt : Rt) (g : Globals) (_tx : Text) (mt : Match) (ref : PTime) (idx : Nat) :
    Out PResult := do
  let text := mt.str 0
  let result := PResult.mk' ref idx text
  match ← relativeNumber g (mt.str 3) with
  | none => return result
  | some num =>
    if mt.str 2 = txt!"this" then
      if !(mt.str 3).isEmpty then return result
      else relativeThis result ref (mt.str 4)
    else if ← searches true Pat.dwmy (mt.str 4) then
      relativeDate result ref (mt.str 2) (mt.str 4) num
    else
      let t ← relativeTime ref (mt.str 2) (mt.str 4) num
      let result ← implyDate result t.date
      let result := result.onStart (fun c =>
        ((c.imply .hour t.hours).imply .min t.minutes).imply .sec t.seconds)
      return result.setTag .relative

/-- `ENRelativeDateFormatParser`. -/
def relativeParser : Parser := ⟨compile true Pat.relative, pureExtract relativeExtract⟩

end Chrono
