import Verif.Spec.Reference
import Verif.Spec.Merge
import Verif.Spec.Words
import Verif.Spec.Zone
/-!
# Specification vocabulary: results that can be printed
-/
namespace Chrono.Spec
open Chrono Chrono.Boost

/-- The getters read a date of the calendar in the years 1401..9998 and a time of day (an hour up to 36 is what the
time parser may report for the end of a range; printing carries it over to the next day). -/
def Printable (c : Comps) : Prop :=
  ∃ y m d h mi s : Nat, 1401 ≤ y ∧ y ≤ 9998 ∧ Civil y m d ∧ h ≤ 36 ∧ mi < 60 ∧ s < 60 ∧ DateIs c (y, m, d) ∧ TimeIs c h mi s

/-- Start and (if there is one) end of the mention can be printed, and its time zone is less than a week away. -/
structure Presentable (r : PResult) : Prop where
  start : Printable r.startDate
  stop : r.hasEnd = true → Printable r.endDate
  zone : -10000 ≤ r.startDate.get .tzoffset ∧ r.startDate.get .tzoffset ≤ 10000

/-- The mention is not a range of times of day without a date. -/
def NoTimeRange (r : PResult) : Prop := TimeOnly r → r.hasEnd = false

/-- The outcome is normal, with a value that satisfies `P`. -/
def Normal {α : Type} (P : α → Prop) (x : Out α) : Prop := ∃ a, x = .ok a ∧ P a

/-- No byte of the text is a digit. -/
def NoDigits (text : Text) : Prop := ∀ c ∈ text, ¬ (48 ≤ c ∧ c ≤ 57)

/-- Every month that the text names has, in every year, every day of the month that the text names with an ordinal word. -/
def MonthsHaveTheDays (text : Text) : Prop :=
  ∀ w m o d, w <:+: toLower text → monthWord w m = true → o <:+: toLower text → 1 ≤ d → d ≤ 31 → words o = ordinalName d →
    ∀ y, Civil y m d

/-- An ordinal word, as the program reads it in the second place of a range (one of them it misspells). -/
def OrdinalWord (o : Text) : Prop := (∃ d, 1 ≤ d ∧ d ≤ 31 ∧ words o = ordinalName d) ∨ o = txt!"seventheenth"

/-- The text has no ordinal word after `to` or a dash (and blanks). -/
def NoOrdinalRange (text : Text) : Prop :=
  ∀ sep ∈ [txt!"to", txt!"-"], ∀ blanks o, (∀ c ∈ blanks, Blank c) → OrdinalWord o → ¬ sep ++ blanks ++ o <:+: toLower text

end Chrono.Spec
