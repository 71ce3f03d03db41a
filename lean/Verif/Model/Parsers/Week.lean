import Verif.Model.Parsers.Deadline
/-!
# `ENWeekExperessionParser.hpp`
-/
namespace Chrono
open Boost

/-- The number of weeks, ENWeekExperessionParser.hpp:29-38. `INTEGER_WORDS[match.str(4)]` inserts an unknown word
with value 0 (the test for a negative number of weeks that follows can never succeed). -/
def weekNumber (g : Globals) (mt : Match) : Out (Int × Globals) :=
  if !(mt.str 3).isEmpty then do
    let n ← stoi (mt.str 3)
    return (n, g)
  else if !(mt.str 4).isEmpty then
    .ok ((WordMap.get g (mt.str 4) : Int), WordMap.touch g (mt.str 4))
  else .ok (1, g)

/-- The shifted date, ENWeekExperessionParser.hpp:40-43. -/
def weekShift (ref : PTime) (modifier : Text) (n : Int) : Out Date :=
  if contains txt!"last" modifier then ref.date.addDays (-(7 * n))
  else if contains txt!"next" modifier then ref.date.addDays (7 * n)
  else .ok ref.date

/-- `ENWeekExpressionParser::extract`, src/parsers/en/ENWeekExperessionParser.hpp:22-50.
The globals after an exception are not modelled. -/
def weekExtract (_rt : Rt) (g : Globals) (_tx : Text) (mt : Match) (ref : PTime) (idx : Nat) :
    Out (PResult × Globals) := do
  let text := mt.str 0
  let result := PResult.mk' ref idx text
  let (n, g) ← weekNumber g mt
  let tmp ← weekShift ref (mt.str 2) n
  let result ← implyDate result tmp
  return (result, g)

/-- `ENWeekExpressionParser`. -/
def weekParser : Parser := ⟨compile true Pat.week, weekExtract⟩

end Chrono
