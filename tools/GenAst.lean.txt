import Verif.Model.PatternText
/- Prints lean/Verif/Model/PatternAst.lean. Run in /verif/lean: lake env lean --run ../tools/GenAst.lean
   The output is checked by the kernel (theorems at its end), not trusted. -/
open Chrono
def bs (b : Bool) : String := if b then "true" else "false"
def kS : ClassK → String | .digit => ".digit" | .word => ".word" | .space => ".space"
def iS : Item → String
  | .one c => s!".one {c}"
  | .range a b => s!".range {a} {b}"
  | .cls k n => s!".cls {kS k} {bs n}"
def dS : Single → String
  | .ch ic c => s!"(.ch {bs ic} {c})"
  | .set ic n is => s!"(.set {bs ic} {bs n} [{String.intercalate ", " (is.map iS)}])"
  | .any => ".any"
def rS : Re → String
  | .eps => ".eps"
  | .one d => s!"(.one {dS d})"
  | .seq a b => s!"(.seq {rS a}\n {rS b})"
  | .alt a b => s!"(.alt {rS a}\n {rS b})"
  | .star g r => s!"(.star {bs g} {rS r})"
  | .cap n r => s!"(.cap {n} {rS r})"
  | .bol => ".bol"
  | .eol => ".eol"
  | .wb n => s!"(.wb {bs n})"
  | .look n r => s!"(.look {bs n} {rS r})"
def pats : List (String × Bool × Text) :=
  [("casualTime", true, Pat.casualTime), ("deadline", true, Pat.deadline),
   ("casualDate", true, Pat.casualDate), ("middleEndian", true, Pat.middleEndian),
   ("timeLater", true, Pat.timeLater), ("monthName", true, Pat.monthName), ("timeAgo", true, Pat.timeAgo),
   ("timeExpr", true, Pat.timeExpr), ("iso", true, Pat.iso), ("holiday", true, Pat.holiday),
   ("week", true, Pat.week), ("relative", true, Pat.relative), ("tzName", true, Pat.tzName),
   ("connector", true, Pat.connector), ("rangeTo", false, Pat.rangeTo), ("toGuard", false, Pat.toGuard),
   ("lastNight", true, Pat.lastNight), ("dwmy", false, Pat.dwmy), ("dwmyI", true, Pat.dwmy),
   ("collapse", false, Pat.collapse), ("timeUnit", true, Pat.timeUnit)]
def main : IO Unit := do
  IO.println "import Verif.Model.PatternText"
  IO.println "/-!\n# Syntax trees of the patterns (generated by tools/GenAst.lean)\n\nEach `compile_*` theorem is checked by the kernel: the tree is what the compiler model produces from\nthe verbatim pattern string of `PatternText.lean`.\n-/"
  IO.println "namespace Chrono.Ast\n"
  for (n, ic, p) in pats do
    match compile ic p with
    | none => throw (IO.userError n)
    | some r =>
      IO.println s!"/-- tree of `Pat.{if n == "dwmyI" then "dwmy" else n}` -/"
      IO.println s!"def {n} : Re :=\n {rS r}\n"
  for (n, ic, _) in pats do
    IO.println s!"theorem compile_{n} : compile {bs ic} Pat.{if n == "dwmyI" then "dwmy" else n} = some {n} := by decide +kernel\n"
  IO.println "/-- The weekday pattern has unbalanced parentheses: `std::regex` throws. -/"
  IO.println "theorem compile_dayOfWeek : compile true Pat.dayOfWeek = none := by decide +kernel\n"
  IO.println "end Chrono.Ast"
