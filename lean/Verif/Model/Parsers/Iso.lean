import Verif.Model.Parser
/-!
# `ENISOFormatParser.hpp`
-/
namespace Chrono
open Boost

/-- Time zone offset of an ISO text, ENISOFormatParser.hpp:55-73. -/
def isoOffset (mt : Match) : Out Int := do
  if (mt.str 9).isEmpty then return 0
  else
    let hourOffset ← stoi (mt.str 9)
    let minuteOffset ← if (mt.str 10).isEmpty then pure 0 else stoi (mt.str 10)
    let offset := hourOffset * 60
    if offset < 0 then return offset - minuteOffset else return offset + minuteOffset

/-- `ENISOFormatParser::extract`, src/parsers/en/ENISOFormatParser.hpp:32-77. -/
def isoExtract (_rt : Rt) (_g : Globals) (_tx : Text) (mt : Match) (ref : PTime) (idx : Nat) :
    Out PResult := do
  let text := mt.str 0
  let result := PResult.mk' ref idx text
  let month ← stoi (mt.str 3)
  let day ← stoi (mt.str 4)
  if month > 12 ∨ month < 1 ∨ day > 31 ∨ day < 1 then return result
  else
    let year ← stoi (mt.str 2)
    let result := result.onStart (fun c => ((c.set .year year).set .month month).set .mday day)
    let result ←
      if (mt.str 5).isEmpty then pure result
      else do
        let h ← stoi (mt.str 5)
        let mi ← stoi (mt.str 6)
        let result := result.onStart (fun c => (c.set .hour h).set .min mi)
        let result ←
          if (mt.str 7).isEmpty then pure result
          else do
            let s ← stoi (mt.str 7)
            pure (result.onStart (·.set .sec s))
        let off ← isoOffset mt
        pure (result.onStart (·.set .tzoffset off))
    return result.setTag .iso

/-- `ENISOFormatParser`. -/
def isoParser : Parser := ⟨compile true Pat.iso, pureExtract isoExtract⟩

end Chrono
