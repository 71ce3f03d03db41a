import Verif.Model.Refiners.MergeDateTime
/-!
# `src/refiners/en/ENMergeDateRangeRefiner.hpp`
-/
namespace Chrono
open Boost

/-- `ENMergeDateRange::isAbleToMerge`, ENMergeDateRangeRefiner.hpp:77-91: `begin` and `end` are 32-bit unsigned, so
`end - begin` wraps when the results overlap. -/
def mdrAble (text : Text) (r1 r2 : PResult) : Out Bool := do
  let b := PResult.toU32 (r1.index + r1.textLength)
  let n := PResult.toU32 ((r2.index : Int) - b)
  let between ← substrN text b n
  searches false Pat.rangeTo between

/-- `ENMergeDateRange::mergeResult`, ENMergeDateRangeRefiner.hpp:44-75. When the first date is later, both variables
end up being `fromResult` (the intended swap does not happen). -/
def mdrMerge (text : Text) (fromR toR : PResult) : Out PResult := do
  let fd ← fromR.startDate.date
  let td ← toR.startDate.date
  let toR := if fd.us > td.us then fromR else toR
  let dr := { fromR with endDate := toR.startDate, hasEnd := true }
  let startIndex := min dr.index toR.index
  let endIndex := max (dr.index + dr.textLength) (toR.index + toR.textLength)
  let dr := dr.setIndex startIndex
  let tx ← substrN text startIndex (endIndex - startIndex + 1)
  let dr := dr.setText tx
  return (copyTags toR dr).setTag .mergeDateRange

/-- One step, ENMergeDateRangeRefiner.hpp:29-33. -/
def mdrStep (text : Text) (prev curr : PResult) : Out (Option PResult) := do
  if !prev.hasEnd && !curr.hasEnd then
    if ← mdrAble text prev curr then return some (← mdrMerge text prev curr) else return none
  else return none

/-- The loop, ENMergeDateRangeRefiner.hpp:25-39; `prev` is the variable `prev`, pushed once more at the end. -/
def mdrLoop (text : Text) (prev : PResult) : List PResult → Out (List PResult)
  | p :: c :: rest => do
    match ← mdrStep text p c with
    | some m =>
      let tl ← mdrLoop text m rest
      return m :: tl
    | none =>
      let tl ← mdrLoop text p (c :: rest)
      return p :: tl
  | _ => .ok (if prev.isEmpty then [] else [prev])

/-- `ENMergeDateRange::refine`, ENMergeDateRangeRefiner.hpp:17-41. -/
def mdrRefine (rs : List PResult) (text : Text) : Out (List PResult) :=
  match rs with
  | p :: c :: rest => mdrLoop text p (p :: c :: rest)
  | rs => .ok rs

end Chrono
