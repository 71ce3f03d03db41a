import Verif.Boost.TimeString
import Verif.Model.Parsers.Casual
import Verif.Model.Parsers.Deadline
import Verif.Model.Parsers.DayOfWeek
import Verif.Model.Parsers.AgoLater
import Verif.Model.Parsers.Month
import Verif.Model.Parsers.TimeExpr
import Verif.Model.Parsers.Iso
import Verif.Model.Parsers.Holiday
import Verif.Model.Parsers.Week
import Verif.Model.Parsers.Relative
import Verif.Model.Refiners.Overlap
import Verif.Model.Refiners.TimeZone
import Verif.Model.Refiners.MergeDateTime
import Verif.Model.Refiners.MergeDateRange
/-!
# `time.cpp`
-/
namespace Chrono
open Boost

/-- The parsers in the order of time.cpp:57. -/
def mainParsers : List Parser :=
  [casualTimeParser, deadlineParser, dayOfWeekParser, casualDateParser, middleEndianParser,
   timeLaterParser, monthNameParser, timeAgoParser, timeExprParser, isoParser, holidayParser, weekParser]

/-- The loop over the parsers, time.cpp:71-74. Each call lower-cases `str`. -/
def runParsers (rt : Rt) (ref : PTime) : List Parser → Globals → Text → Out (List PResult × Globals)
  | [], g, _ => .ok ([], g)
  | P :: ps, g, text => do
    let (rs, g) ← execute rt P g text ref
    let (rest, g) ← runParsers rt ref ps g (textAfter text)
    return (rs ++ rest, g)

/-- What `std::sort(results, by index)` (time.cpp:76-79) may return: any permutation that is sorted by
index; the order of equal indices is up to the implementation. -/
def SortedPerm (l l' : List PResult) : Prop :=
  l'.Perm l ∧ l'.Pairwise (fun a b => a.index ≤ b.index)

/-- The loop over the refiners, time.cpp:58, 81-83. -/
def runRefiners (rs : List PResult) (text : Text) : Out (List PResult) := do
  let rs := overlapRefine rs
  let rs ← tzRefine rs text
  let rs ← mdtRefine rs text
  mdrRefine rs text

/-- time.cpp:85-88: the printed line (without the newline). -/
def printResult : List PResult → Out Text
  | [] => .ok txt!"[???] -- Invalid date"
  | r :: _ => do
    let d ← r.toDate
    return txt!"Date:\t" ++ d

/-- `main` with a test string and a reference time, time.cpp:60, 71-90. `sort` is the behaviour of `std::sort`. -/
def mainRun (rt : Rt) (sort : List PResult → List PResult) (text : Text) (ref : PTime) : Out Text := do
  let (rs, _) ← runParsers rt ref mainParsers integerWords text
  let rs ← runRefiners (sort rs) (textAfter text)
  printResult rs

/-- `printUsage`, time.cpp:27-30 (two lines). -/
def usageText : Text :=
  txt!"Usage: ./main [test string] [reference date] (last argument is optional) \n" ++
  txt!"If reference date is provided, format should be YYYY-MM-DD HH:MM:SS"

/-- `main`, time.cpp:32-91: `args` are the arguments after the program name, `clock` is what
`second_clock::local_time()` returns. The output is given without its last newline. (The parsers and refiners are
constructed before the reference date is read, time.cpp:42-58; their constructors are the defaulted ones and have no
effect, the patterns are compiled in `execute`.) -/
def mainArgs (rt : Rt) (sort : List PResult → List PResult) (clock : PTime) : List Text → Out Text
  | [text] => mainRun rt sort text clock
  | [text, refDate] => do
    let t ← timeFromString refDate
    mainRun rt sort text t
  | _ => .ok usageText

end Chrono
