import Verif.Model.Parser
/-!
# `ENDeadlineFormatParser.hpp`
-/
namespace Chrono
open Boost

/-- The number of a deadline phrase, ENDeadlineFormatParser.hpp:35-58; `none`: the caught `logic_error`
(`return result`). -/
def deadlineNumber (g : Globals) (tmp : Text) : Out (Option FNum) :=
  match WordMap.lookup g tmp with
  | some n => .ok (some (FNum.ofNat n))
  | none =>
    if tmp = txt!"a" ∨ tmp = txt!"an" then .ok (some (.int 1))
    else if contains txt!"few" tmp then .ok (some (.int 3))
    else if contains txt!"half" tmp then .ok (some .half)
    else
      match stoi tmp with
      | .ok n => .ok (some (FNum.ofNat n.toNat))    -- the group holds digits only here: `n ≥ 0`
      | .exn e => if e.isLogicError then .ok none else .exn e
      | .ub => .ub
      | .unspec => .unspec
      | .diverge => .diverge

/-- ENDeadlineFormatParser.hpp:108-110: imply the date. -/
def implyDate (r : PResult) (d : Date) : Out PResult := do
  let y ← d.year
  let m ← d.month
  let dd ← d.day
  return r.onStart (fun c => ((c.imply .year y).imply .month m).imply .mday dd)

/-- The "day|week|month|year" branch, ENDeadlineFormatParser.hpp:66-112. -/
def deadlineDate (result : PResult) (ref : PTime) (unit : Text) (num : FNum) : Out PResult := do
  let tmpDate := ref.date
  if contains txt!"day" unit then
    if num.isWhole then
      implyDate result (← tmpDate.addDays (← num.toLong))
    else
      let t := ref.addHours 12
      let result ← implyDate result t.date
      return result.onStart (fun c => (c.imply .hour t.hours).imply .min t.minutes)
  else if contains txt!"week" unit then
    if num.isWhole then implyDate result (← tmpDate.addDays (7 * (← num.toLong)))
    else implyDate result (← tmpDate.addDays 3)
  else if contains txt!"month" unit then
    if num.isWhole then implyDate result (← tmpDate.addMonths (← num.toInt))
    else implyDate result (← tmpDate.addDays 15)
  else if contains txt!"year" unit then
    if num.isWhole then implyDate result (← tmpDate.addMonths (12 * (← num.toInt)))
    else implyDate result (← tmpDate.addMonths 6)
  else implyDate result tmpDate

/-- The time branch, ENDeadlineFormatParser.hpp:115-130: new `tmpTime`. -/
def deadlineTime (ref : PTime) (unit : Text) (num : FNum) : Out PTime := do
  if findsAtZero txt!"hour" unit then
    if num.isWhole then return ref.addHours (← num.toInt) else return ref.addMinutes 30
  else if findsAtZero txt!"minute" unit then
    if num.isWhole then return ref.addMinutes (← num.toInt) else return ref.addSeconds 30
  else if findsAtZero txt!"second" unit then
    return ref.addSeconds (← num.ceilInt)
  else return ref

/-- `ENDeadlineFormatParser::extract`, src/parsers/en/ENDeadlineFormatParser.hpp:27-141. -/
def deadlineExtract (_rt : Rt) (g : Globals) (_tx : Text) (mt : Match) (ref : PTime) (idx : Nat) :
    Out PResult := do
  let text := mt.str 0
  let result := PResult.mk' ref idx text
  match ← deadlineNumber g (mt.str 3) with
  | none => return result
  | some num =>
    if ← searches false Pat.dwmy (mt.str 4) then
      deadlineDate result ref (mt.str 4) num
    else
      let tmpTime ← deadlineTime ref (mt.str 4) num
      let result ← implyDate result ref.date
      let result := result.onStart (fun c =>
        ((c.imply .hour tmpTime.hours).imply .min tmpTime.minutes).imply .sec tmpTime.seconds)
      return result.setTag .deadline

/-- `ENDeadlineFormatParser`. -/
def deadlineParser : Parser := ⟨compile true Pat.deadline, pureExtract deadlineExtract⟩

end Chrono
