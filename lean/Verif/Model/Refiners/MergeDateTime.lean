import Verif.Model.Parser
/-!
# `src/refiners/en/ENMergeDateAndTimeRefiner.hpp`
-/
namespace Chrono
open Boost

/-- `isDateOnly`, ENMergeDateAndTimeRefiner.hpp:11-13. -/
def isDateOnly (r : PResult) : Bool := !r.startDate.certain .hour
/-- `isTimeOnly`, ENMergeDateAndTimeRefiner.hpp:15-17. -/
def isTimeOnly (r : PResult) : Bool := !r.startDate.certain .month && !r.startDate.certain .mday

/-- `isAbleToMerge`, ENMergeDateAndTimeRefiner.hpp:19-22: note that the second argument of `substr` is a length,
and the call passes an index. -/
def mdtAble (text : Text) (prev curr : PResult) : Out Bool := do
  let between ← substrN text (prev.index + prev.textLength) curr.index
  searches true Pat.connector between

/-- `mergeDateTimeComponent`, ENMergeDateAndTimeRefiner.hpp:24-51. -/
def mergeDateTimeComponent (dateComp timeComp : Comps) : Comps :=
  if timeComp.certain .hour then
    let c := (dateComp.set .hour (timeComp.get .hour)).set .min (timeComp.get .min)
    if timeComp.certain .sec then c.set .sec (timeComp.get .sec) else c.imply .sec (timeComp.get .sec)
  else
    ((dateComp.imply .hour (timeComp.get .hour)).imply .min (timeComp.get .min)).imply .sec
      (timeComp.get .sec)

/-- `for(auto &mod: utils::ModList) if(src.getTag(mod)) dst.setTag(mod);`,
ENMergeDateAndTimeRefiner.hpp:92-95, ENMergeDateRangeRefiner.hpp:68-71. (`getTag` on `src` only changes `src`,
which is not used afterwards.) -/
def copyTags (src dst : PResult) : PResult :=
  modList.foldl (fun d m => if src.getTag m then d.setTag m else d) dst

/-- The end of a merged result, ENMergeDateAndTimeRefiner.hpp:65-82; `none` = no end. -/
def mergedEnd (dateResult timeResult : PResult) (startDateTime : Comps) : Out (Option Comps) := do
  if dateResult.hasEnd || timeResult.hasEnd then
    let endDate := if dateResult.hasEnd then dateResult.endDate else dateResult.startDate
    let endTime := if timeResult.hasEnd then timeResult.endDate else timeResult.startDate
    let e := mergeDateTimeComponent endDate endTime
    if !dateResult.hasEnd then
      let ed ← e.date
      let sd ← startDateTime.date
      if ed.us < sd.us then
        if e.certain .mday then return some (e.set .mday (e.get .mday + 1))
        else return some (e.imply .mday (e.get .mday + 1))
      else return some e
    else return some e
  else return none

/-- `dateResult` with the merged start and end, ENMergeDateAndTimeRefiner.hpp:59-84. -/
def mergedRecord (dateResult : PResult) (startDateTime : Comps) (e? : Option Comps) : PResult :=
  match e? with
  | some e => { dateResult with startDate := startDateTime, endDate := e, hasEnd := true }
  | none => { dateResult with startDate := startDateTime }

/-- `mergeResult`, ENMergeDateAndTimeRefiner.hpp:53-98. -/
def mdtMerge (text : Text) (dateResult timeResult : PResult) : Out PResult := do
  let startDateTime := mergeDateTimeComponent dateResult.startDate timeResult.startDate
  let e? ← mergedEnd dateResult timeResult startDateTime
  let dr := mergedRecord dateResult startDateTime e?
  let startIndex := min dr.index timeResult.index
  let endIndex := max (dr.index + dr.textLength) (timeResult.index + timeResult.textLength)
  let dr := dr.setIndex startIndex
  let tx ← substrN text startIndex (endIndex - startIndex)
  let dr := dr.setText tx
  return (copyTags timeResult dr).setTag .mergeDateAndTime

/-- One step: do `prev` and `curr` merge, and into what? (ENMergeDateAndTimeRefiner.hpp:117-137) -/
def mdtStep (text : Text) (prev curr : PResult) : Out (Option PResult) := do
  let first ← if isDateOnly prev && isTimeOnly curr then mdtAble text prev curr else pure false
  if first then return some (← mdtMerge text prev curr)
  else
    let second ← if isDateOnly curr && isTimeOnly prev then mdtAble text prev curr else pure false
    if second then return some (← mdtMerge text curr prev) else return none

/-- The loop, ENMergeDateAndTimeRefiner.hpp:113-141. The list starts at `r[i-1]`; `curr` is the variable `curr`,
pushed at the end. After a merge `curr` becomes `r[i+1]` if there is one (else `r.at` throws, is caught, and
`curr` stays the second element of the merged pair). -/
def mdtLoop (text : Text) (curr : PResult) : List PResult → Out (List PResult)
  | p :: c :: rest => do
    match ← mdtStep text p c with
    | some m =>
      let tl ← mdtLoop text (rest.headD c) rest
      return m :: tl
    | none =>
      let tl ← mdtLoop text c (c :: rest)
      return p :: tl
  | _ => .ok (if curr.isEmpty then [] else [curr])

/-- `ENMergeDateAndTime::refine`, ENMergeDateAndTimeRefiner.hpp:100-145. -/
def mdtRefine (rs : List PResult) (text : Text) : Out (List PResult) :=
  match rs with
  | p :: c :: rest => mdtLoop text c (p :: c :: rest)
  | rs => .ok rs

end Chrono
