import Verif.Spec.Calendar
import Verif.Spec.Reference
import Verif.Spec.DateWords
/-!
# Specification vocabulary: the days that words name

Nothing here refers to the model of the parsers.
-/
namespace Chrono.Spec
open Chrono

/-- The day the word names at the time `x`: today, the day after (but today itself in the first hour of the day), the day before. -/
inductive DayNamed (x : DateTime) : Text → Nat × Nat × Nat → Prop
  | today : DayNamed x txt!"today" x.date
  | tonight : DayNamed x txt!"tonight" x.date
  | tomorrow {w : Text} (hw : w ∈ [txt!"tomorrow", txt!"tmr"]) (h : 0 < x.hour) : DayNamed x w (nextDay x.date)
  | firstHour {w : Text} (hw : w ∈ [txt!"tomorrow", txt!"tmr"]) (h : x.hour = 0) : DayNamed x w x.date
  | yesterday {d : Nat × Nat × Nat} (h : nextDay d = x.date) : DayNamed x txt!"yesterday" d

/-- The moment the word stands for, alone, at the time `x`: that time; the beginning of the day; 10 p.m.; the same hour of the day before. -/
inductive MomentNamed (x : DateTime) : Text → DateTime → Prop
  | now : MomentNamed x txt!"now" x
  | tonight : MomentNamed x txt!"tonight" ⟨x.year, x.month, x.day, 22, 0, 0⟩
  | day {w : Text} {y m d : Nat} (hw : w ∈ [txt!"today", txt!"tomorrow", txt!"tmr"]) (h : DayNamed x w (y, m, d)) : MomentNamed x w ⟨y, m, d, 0, 0, 0⟩
  | yesterday {y m d : Nat} (h : nextDay (y, m, d) = x.date) : MomentNamed x txt!"yesterday" ⟨y, m, d, x.hour, 0, 0⟩

/-- Words (and the hyphen) that may join two dates to a range. -/
def joinWords : List Text := [txt!"and", txt!"to", txt!"through", txt!"-"]

/-- Parts of the day, and the hours they stand for. -/
def partHours : List (Text × Nat) := [(txt!"morning", 6), (txt!"afternoon", 15), (txt!"evening", 20), (txt!"night", 20)]

/-- Nothing but blanks, perhaps with `at` or `from` among them. -/
def JustAt (text : Text) : Prop := ∃ b k g, Blanks b ∧ k ∈ [txt!"", txt!"at", txt!"from"] ∧ Blanks g ∧ toLower text = b ++ k ++ g

end Chrono.Spec
