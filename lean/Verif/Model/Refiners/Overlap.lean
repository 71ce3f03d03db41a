import Verif.Model.Parser
/-!
# `src/refiners/OverlapRemovalRefiner.hpp`

All refiners take and return `std::vector<ParsedResult>`; the elements of such a vector were stored by the
copy constructor, for which copying again is the identity (`PResult.copy_copy`), so the further copies made by
the refiners are not written out.
-/
namespace Chrono

/-- The loop of `OverlapRemover::refine`, OverlapRemovalRefiner.hpp:23-36: `prev` is `prevResult`. -/
def olrLoop (prev : PResult) : List PResult → List PResult
  | [] => if prev.isEmpty then [] else [prev]
  | t :: rest =>
    if t.index < prev.index + prev.textLength then
      if t.textLength > prev.textLength then olrLoop t rest else olrLoop prev rest
    else prev :: olrLoop t rest

/-- `OverlapRemover::refine`, OverlapRemovalRefiner.hpp:14-38. -/
def overlapRefine : List PResult → List PResult
  | [] => []
  | [r] => [r]
  | r0 :: rest => olrLoop r0 rest

end Chrono
