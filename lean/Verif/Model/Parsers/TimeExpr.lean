import Verif.Model.Parsers.AgoLater
/-!
# `ENTimeExpressionParser.hpp`
-/
namespace Chrono
open Boost

/-- ENTimeExpressionParser.hpp:56-66 and :134-142: hour word or number. -/
def hourOf (t : Text) : Out Int :=
  if t = txt!"noon" then .ok 12
  else if t = txt!"midnight" then .ok 0
  else stoi t

/-- ENTimeExpressionParser.hpp:69-75 and :144-150: explicit minutes, or "hhmm" split. -/
def minuteOf (hour : Int) (t : Text) : Out (Int × Int) := do
  if !t.isEmpty then
    let m ← stoi t
    return (hour, m)
  else if hour > 100 then return (hour.tdiv 100, hour.tmod 100)
  else return (hour, 0)

/-- 12-hour conversion for the letter `c` ('a' = 97, 'p' = 112): ENTimeExpressionParser.hpp:91-99, :162-168
and :178-184. -/
def meridiem (c : Nat) (hour : Int) : Int :=
  if c = 97 then (if hour = 12 then 0 else hour)
  else if c = 112 then (if hour ≠ 12 then hour + 12 else hour)
  else hour

/-- First character of a non-empty group. -/
def firstChar (t : Text) : Nat := t.headD 0

/-- 12-hour conversion of the end hour, ENTimeExpressionParser.hpp:157-187: the end has its own am/pm (then the start
hour may be changed too), or it takes the one of the start, kept in `ampm_s`, if that was assigned. -/
def toMeridiem (rt : Rt) (mt : Match) (result : PResult) (hour toHour : Int) (ampm : Option Nat) :
    Out (Int × PResult) :=
  if !(mt.str 14).isEmpty then do
    -- `char &ampm = match.str(TO_MERIDIEM_GROUP)[0]` dangles; it is read in both tests
    let c ← rt.dangling (firstChar (mt.str 14))
    let th := if c = 97 then (if toHour = 12 then 0 else toHour) else toHour
    let c' ← rt.dangling (firstChar (mt.str 14))
    if c' = 112 then
      let th := if th ≠ 12 then th + 12 else th
      if (mt.str 6).isEmpty ∧ hour ≠ 12 then
        return (th, result.onStart (·.set .hour (hour + 12)))
      else return (th, result)
    else return (th, result)
  else do
    let c ← match ampm with
      | some c => Out.ok c
      | none => rt.uninit
    let th := if c = 97 then (if toHour = 12 then 0 else toHour) else toHour
    let c' ← match ampm with
      | some c => Out.ok c
      | none => rt.uninit
    let th := if c' = 112 then (if th ≠ 12 then th + 12 else th) else th
    return (th, result)

/-- Seconds of the end, ENTimeExpressionParser.hpp:189-195: `none` = `return result`. -/
def toSecond (mt : Match) : Out (Option Int) := do
  if (mt.str 12).isEmpty then return some (-1)
  else
    let s ← stoi (mt.str 12)
    if s ≥ 60 ∨ s < 0 then return none else return some s

/-- ENTimeExpressionParser.hpp:194-202: the end. -/
def setEnd (mt : Match) (ref : PTime) (result : PResult) (toHour toMinute s : Int) : Out PResult := do
  let result := if (mt.str 12).isEmpty then result else result.onEnd (·.set .sec s)
  let result := result.makeEndValid
  let result := result.onEnd (fun c => (c.set .hour toHour).set .min toMinute)
  let d ← ref.date.day
  let m ← ref.date.month
  let y ← ref.date.year
  return result.onEnd (fun c => ((c.imply .mday d).imply .month m).imply .year y)

/-- The "to" part, ENTimeExpressionParser.hpp:128-203. `result` already holds the start; `hour` is the local
variable `hour`, `ampm` the value of `ampm_s` if it was assigned. -/
def timeExprTo (rt : Rt) (mt : Match) (ref : PTime) (result : PResult) (hour : Int) (ampm : Option Nat) :
    Out PResult := do
  let guard ← match compile false Pat.toGuard with
    | none => Out.exn .regexError
    | some r => pure (r.fullMatch (mt.str 7)).isSome
  if guard then return result
  else
    let th ← hourOf (mt.str 10)
    let hm ← minuteOf th (mt.str 11)
    if hm.2 ≥ 60 ∨ hm.1 > 24 then return result
    else if !(mt.str 14).isEmpty ∧ hm.1 > 12 then return result
    else
      let tr ← toMeridiem rt mt result hour hm.1 ampm
      match ← toSecond mt with
      | none => return tr.2
      | some s => setEnd mt ref tr.2 tr.1 hm.2 s

/-- Is the character before the match (in `text`) a word character?  ENTimeExpressionParser.hpp:40: `substr`
without a length, so only true when the match starts at the last character. -/
def precededByWord (mt : Match) (tx : Text) : Out Bool :=
  if mt.position > 0 then do
    let s ← substr tx (mt.position - 1)
    return isOneWordChar s
  else return false

/-- Seconds of the start, ENTimeExpressionParser.hpp:48-54: `none` = `return result`. -/
def fromSecond (mt : Match) : Out (Option Int) := do
  if (mt.str 4).isEmpty then return some (-1)
  else
    let s ← stoi (mt.str 4)
    if toU16 s ≥ 60 then return none else return some (toU16 s)

/-- ENTimeExpressionParser.hpp:115-122: the start. -/
def setStart (ref : PTime) (result : PResult) (hour minute : Int) : Out PResult := do
  let result := result.onStart (fun c => (c.set .hour hour).set .min minute)
  let d ← ref.date.day
  let m ← ref.date.month
  let y ← ref.date.year
  let result := result.onStart (fun c => ((c.imply .mday d).imply .month m).imply .year y)
  return result.setTag .timeExpression

/-- `ENTimeExpressionParser::extract`, src/parsers/en/ENTimeExpressionParser.hpp:35-204. -/
def timeExprExtract (rt : Rt) (_g : Globals) (tx : Text) (mt : Match) (ref : PTime) (idx : Nat) :
    Out PResult := do
  let text ← substr (mt.str 0) (mt.lengthOf 1)
  let result := PResult.mk' ref idx text
  if ← precededByWord mt tx then return result
  else
    match ← fromSecond mt with
    | none => return result
    | some s =>
      let result := if (mt.str 4).isEmpty then result else result.onStart (·.set .sec s)
      let hour ← hourOf (mt.str 2)
      let hm ← minuteOf hour (mt.str 3)
      if hm.2 ≥ 60 then return result
      else if hm.1 > 24 then return result
      else if !(mt.str 6).isEmpty ∧ hm.1 > 12 then return result
      else
        let ampm : Option Nat := if (mt.str 6).isEmpty then none else some (firstChar (mt.str 6))
        let hour := match ampm with
          | none => hm.1
          | some c => meridiem c hm.1
        let result ← setStart ref result hour hm.2
        if (mt.str 7).isEmpty then return result
        else timeExprTo rt mt ref result hour ampm

/-- `ENTimeExpressionParser`. -/
def timeExprParser : Parser := ⟨compile true Pat.timeExpr, pureExtract timeExprExtract⟩

end Chrono
