import Verif.Model.Parser
/-!
# `src/refiners/ExtractTimeZoneAbbreviation.hpp`
-/
namespace Chrono

/-- Effect on a result whose text is followed by the abbreviation `abbr` with offset `off`,
ExtractTimeZoneAbbreviation.hpp:31-42. (Line 38 sets the offset of the *start* although it tests the end.) -/
def tzApply (res : PResult) (abbr : Text) (off : Int) : PResult :=
  let res := if !res.startDate.certain .tzoffset then res.onStart (·.set .tzoffset off) else res
  let res := if res.hasEnd && !res.endDate.certain .tzoffset then res.onStart (·.set .tzoffset off) else res
  (res.setText abbr).setTag .extractTZ

/-- Body of the loop, ExtractTimeZoneAbbreviation.hpp:17-48; `re` is the compiled TIMEZONE_NAME_PATTERN. -/
def tzOne (re : Re) (text : Text) (res : PResult) : PResult :=
  let found := res.getTag .timeExpression
  let res := res.touchTag .timeExpression
  if found then
    match substr text (res.index + res.textLength) with
    | .ok tmp =>
      match re.fullMatch tmp with
      | some mt =>
        match tzLookup tzTable (toUpper (mt.str 1)) with
        | some off => tzApply res (mt.str 1) off
        | none => res
      | none => res
    | _ => res                     -- `out_of_range` is caught: continue
  else res

/-- `ExtractTimeZoneAbbreviation::refine`, ExtractTimeZoneAbbreviation.hpp:13-51. -/
def tzRefine (rs : List PResult) (text : Text) : Out (List PResult) :=
  match compile true Pat.tzName with
  | none => .exn .regexError
  | some re => .ok (rs.map (tzOne re text))

end Chrono
