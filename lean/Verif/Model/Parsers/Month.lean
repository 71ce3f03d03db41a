import Verif.Model.Parser
/-!
# `ENMonthNameParser.hpp`, `ENMonthNameMiddleEndianParser.hpp`
-/
namespace Chrono
open Boost

/-- The year that is nearest to the reference date, ENMonthNameMiddleEndianParser.hpp:120-134 and
ENMonthNameParser.hpp:69-82: next year first, then previous year, only if strictly nearer. -/
def nearestYear (ref : PTime) (month day : Int) : Out Int := do
  let ry ← ref.date.year
  let dRef ← mkDate ry month day
  let prevY ← dRef.addMonths (-12)
  let nextY ← dRef.addMonths 12
  let r := ref.date.dn
  if (nextY.dn - r).natAbs < (dRef.dn - r).natAbs then nextY.year
  else if (prevY.dn - r).natAbs < (dRef.dn - r).natAbs then prevY.year
  else dRef.year

/-- Era of an explicit year, ENMonthNameMiddleEndianParser.hpp:99-111 and ENMonthNameParser.hpp:49-61:
`regex_search` for `BE` / `BC` with `icase` is `contains` on the lower-cased era. -/
def eraYear (year : Int) (era : Text) : Int :=
  if !era.isEmpty then
    if contains txt!"be" (toLower era) then year - 543
    else if contains txt!"bc" (toLower era) then -year
    else year
  else if year < 100 then year + 2000
  else year

/-- `try { stoi } catch (std::logic_error&) { return result; }`: `none` = caught. -/
def stoiCaught (t : Text) : Out (Option Int) :=
  match stoi t with
  | .ok n => .ok (some n)
  | .exn e => if e.isLogicError then .ok none else .exn e
  | .ub => .ub
  | .unspec => .unspec
  | .diverge => .diverge

/-- Explicit year of `ENMonthNameMiddleEndianParser`, lines 77-112: outer `none` = `return result`,
`-1` = no year given. -/
def middleEndianYear (mt : Match) : Out (Option Int) := do
  if !(mt.str 8).isEmpty || !(mt.str 10).isEmpty then
    let yearS := if !(mt.str 10).isEmpty then mt.str 10 else mt.str 8
    match ← stoiCaught yearS with
    | none => return none
    | some y =>
      let era := if !(mt.str 11).isEmpty then mt.str 11 else mt.str 9
      return some (eraYear y era)
  else return some (-1)

/-- The day of the month, ENMonthNameMiddleEndianParser.hpp:68-70: digits, or else an ordinal word. -/
def middleEndianDay (mt : Match) : Out Int :=
  if (mt.str 5).isEmpty then pure (argToOrdinalValue (mt.str 4) : Int)
  else do let d ← stoi (mt.str 5); pure (toU16 d)

/-- The second day of a range such as `dec 25 - 26`, ENMonthNameMiddleEndianParser.hpp:143-156. The empty
`DATE_TO_NUM_GROUP` itself is passed to `argToOrdinalValue`. -/
def middleEndianRange (mt : Match) (result : PResult) : Out PResult :=
  if (mt.str 6).isEmpty then pure result
  else do
    let ed : Int ← (if (mt.str 7).isEmpty then pure (argToOrdinalValue (mt.str 7) : Int) else stoi (mt.str 7) : Out Int)
    pure { result with endDate := ((result.startDate.set .mday ed).set .hour 23).set .min 59, hasEnd := true }

/-- `ENMonthNameMiddleEndianParser::extract`, src/parsers/en/ENMonthNameMiddleEndianParser.hpp:62-160. -/
def middleEndianExtract (_rt : Rt) (_g : Globals) (_tx : Text) (mt : Match) (ref : PTime) (idx : Nat) :
    Out PResult := do
  let result := PResult.mk' ref idx (mt.str 0)
  let month : Int := monthConstants.get (mt.str 3)
  let day ← middleEndianDay mt
  if month = 0 ∨ month > 12 ∨ day = 0 ∨ day > 31 then return result
  else
    match ← middleEndianYear mt with
    | none => return result
    | some year =>
      let y ← (if year ≠ -1 then pure year else nearestYear ref month day : Out Int)
      let result := result.onStart (fun c => ((c.set .mday day).set .month month).set .year y)
      let result :=
        if (mt.str 2).isEmpty then result
        else result.onStart (·.set .wday (weekdayOffset.get (toLower (mt.str 2))))
      let result ← middleEndianRange mt result
      return result.setTag .middleEndian

/-- `ENMonthNameMiddleEndianParser`. -/
def middleEndianParser : Parser := ⟨compile true Pat.middleEndian, pureExtract middleEndianExtract⟩

/-- `ENMonthNameParser::extract`, src/parsers/en/ENMonthNameParser.hpp:31-87. -/
def monthNameExtract (_rt : Rt) (_g : Globals) (_tx : Text) (mt : Match) (ref : PTime) (idx : Nat) :
    Out PResult := do
  let text ← substr (mt.str 0) (mt.lengthOf 1)
  let result := PResult.mk' ref idx text
  let month : Int := monthConstants.get (mt.str 2)
  let year? : Option Int ←
    if (mt.str 3).isEmpty then pure (some (-1))
    else do
      match ← stoiCaught (mt.str 3) with
      | none => pure none
      | some y => pure (some (eraYear y (mt.str 4)))
  match year? with
  | none => return result
  | some year =>
    if year ≠ -1 then
      let result := result.onStart (fun c => ((c.imply .mday 1).set .month month).set .year year)
      return result.setTag .monthName
    else
      let y ← nearestYear ref month 1
      let result := result.onStart (fun c => ((c.imply .mday 1).set .month month).imply .year y)
      return result.setTag .monthName

/-- `ENMonthNameParser`. -/
def monthNameParser : Parser := ⟨compile true Pat.monthName, pureExtract monthNameExtract⟩

end Chrono
