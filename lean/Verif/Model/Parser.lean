import Verif.Model.Result
import Verif.Model.Tables
/-!
# `src/parsers/parsers.hpp`, `src/parsers/parsers.cpp`
-/
namespace Chrono
open Boost

/-- What the machine does at the three places where the sources read something the standard does not
define.
* `uninit`: value of the uninitialised `char ampm_s` (ENTimeExpressionParser.hpp:44, read at :179-184);
* `dangling c`: value read through `char &ampm`, a reference into a destroyed temporary string whose first
  character was `c` (ENTimeExpressionParser.hpp:161-167);
* `stale n`: `match.length(0)` after `remainingText`, into which `match` points, was reassigned
  (parsers.cpp:51, read at :55); `n` is the length before. -/
structure Rt where
  uninit : Out Nat
  dangling : Nat → Out Nat
  stale : Nat → Out Nat

/-- Every one of them is reported as undefined behaviour. -/
def Rt.strict : Rt := ⟨.ub, fun _ => .ub, fun _ => .ub⟩

/-- The machine keeps the iterator distance when the string is reassigned (true of libstdc++, where it is a
pointer difference). The theorems about what `execute` returns assume this, and nothing about the other two
places. -/
def Rt.Benign (rt : Rt) : Prop := ∀ n, rt.stale n = .ok n

/-- A machine on which the uninitialised byte is `c` and the destroyed string is still intact. -/
def Rt.usual (c : Nat) : Rt := ⟨.ok c, fun x => .ok x, fun n => .ok n⟩

/-- The process-wide mutable state: `utils::INTEGER_WORDS` (utils.hpp:53), into which
ENWeekExperessionParser.hpp:33 inserts. -/
abbrev Globals := WordMap

/-- A parser: `getPattern()` (`none` = constructing the regex throws `regex_error`) and
`extract(text, match, ref, idx)`, which may change the globals. -/
structure Parser where
  pattern : Option Re
  extract : Rt → Globals → Text → Match → PTime → Nat → Out (PResult × Globals)

/-- The loop of `Parser::execute`, parsers.cpp:40-63. `rem` is `remainingText`, `mt?` the current `match`
(`none` = `match.empty()`), `acc` the results so far. -/
def execLoop (rt : Rt) (P : Parser) (r : Re) (text : Text) (ref : PTime) :
    Nat → Globals → Text → List PResult → Out (List PResult × Globals)
  | 0, _, _, _ => .diverge
  | n + 1, g, rem, acc =>
    match r.search rem with
    | none => .ok (acc, g)
    | some mt => do
      let idx := mt.position + text.length - rem.length
      let (res, g) ← P.extract rt g rem mt ref idx
      let res := res.copy                                  -- `res = extract(...)`
      if res.hasPossibleDates then
        let rem' ← substr text (idx + mt.length)
        execLoop rt P r text ref n g rem' (acc ++ [res.copy])   -- `push_back(res)`
      else
        let _ ← substr text (mt.position + 1)              -- overwritten at once
        let len ← rt.stale mt.length
        let rem' ← substr text (idx + len)
        execLoop rt P r text ref n g rem' acc

/-- `Parser::execute(text, ref)`, parsers.cpp:25-66: results and globals. The caller's string becomes
`toLower text`. A pattern that does not compile is caught; `match` is then empty and the result list too. -/
def execute (rt : Rt) (P : Parser) (g : Globals) (text : Text) (ref : PTime) :
    Out (List PResult × Globals) :=
  match P.pattern with
  | none => .ok ([], g)
  | some r => execLoop rt P r (toLower text) ref ((toLower text).length + 1) g (toLower text) []

/-- Value of the caller's string after `execute` (parsers.cpp:30: `text = utils::toLowerCase(text)`). -/
def textAfter (text : Text) : Text := toLower text

/-- For parsers that do not touch the globals. -/
def pureExtract (f : Rt → Globals → Text → Match → PTime → Nat → Out PResult) :
    Rt → Globals → Text → Match → PTime → Nat → Out (PResult × Globals) :=
  fun rt g tx mt ref idx => do
    let r ← f rt g tx mt ref idx
    return (r, g)

end Chrono
