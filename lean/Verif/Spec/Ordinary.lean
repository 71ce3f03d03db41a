import Verif.Spec.Alive
import Verif.Spec.Nearest
/-!
# Specification vocabulary: ordinary texts

The texts for which the program is proved not to die. Every condition speaks about what is written in the text (in lower
case); none refers to the model.
-/
namespace Chrono.Spec
open Chrono

/-- `ds` is the number `n`, written in digits. -/
def Number (ds : Text) (n : Nat) : Prop :=
  ds ≠ [] ∧ (∀ c ∈ ds, 48 ≤ c ∧ c ≤ 57) ∧ n = ds.foldl (fun v c => 10 * v + (c - 48)) 0

/-- Blanks only. -/
def Blanks (g : Text) : Prop := ∀ c ∈ g, Blank c

/-- Only blanks, commas, dashes and slashes: what may stand between the parts of a written date. -/
def Gap (g : Text) : Prop := ∀ c ∈ g, Blank c ∨ c = 44 ∨ c = 45 ∨ c = 47

/-- `o` names day `d` of a month: one or two digits (perhaps with `st`, `nd`, `rd`, `th`), or an English ordinal. -/
def DayWritten (o : Text) (d : Nat) : Prop :=
  1 ≤ d ∧ d ≤ 31 ∧
    ((∃ ds, ∃ suffix ∈ [txt!"", txt!"st", txt!"nd", txt!"rd", txt!"th"], o = ds ++ suffix ∧ ds.length ≤ 2 ∧ Number ds d) ∨
      words o = ordinalName d)

/-- The signs and words that stand between the two times of a range: `-`, `–`, `~`, `〜`, `to`, `?` (in UTF-8). -/
def rangeSigns : List Text := [txt!"-", [226, 128, 147], txt!"~", [227, 128, 156], txt!"to", txt!"?"]

/-- An ordinary text. -/
structure Ordinary (text : Text) : Prop where
  /-- There is no backslash. -/
  backslash : 92 ∉ text
  /-- May is not abbreviated. -/
  may : ¬ txt!"may." <:+: toLower text
  /-- No number is larger than 2700. -/
  numbers : ∀ ds n, Number ds n → ds <:+: toLower text → n ≤ 2700
  /-- There is no range of numbers, … -/
  ranges : ∀ sep ∈ rangeSigns, ∀ gap c, Blanks gap → 48 ≤ c → c ≤ 57 → ¬ sep ++ gap ++ [c] <:+: toLower text
  /-- … nor one of ordinal words. -/
  ordinalRanges : NoOrdinalRange text
  /-- A day written after a month exists in that month, in every year. -/
  days : ∀ w m gap o d, monthWord w m = true → Gap gap → DayWritten o d → w ++ gap ++ o <:+: toLower text → ∀ y, Civil y m d
  /-- A year (four digits, perhaps with an era) written after a month is one of 1401..9998, … -/
  years : ∀ w m gap ds n blanks e, monthWord w m = true → Gap gap → Number ds n → ds.length = 4 → Blanks blanks →
    w ++ gap ++ ds ++ blanks ++ Era.text e <:+: toLower text → 1401 ≤ writtenYear n e ∧ writtenYear n e ≤ 9998
  /-- … and so is one written after a month and a day (where less than four digits will do before `ad` and `bc`). -/
  fullDates : ∀ w m gap o d gap' ds n blanks e b, monthWord w m = true → Gap gap → DayWritten o d → Gap gap' → Number ds n →
    (ds.length = 4 ∨ ds.length < 4 ∧ (e = .ad ∨ e = .bc)) → Blanks blanks → Blank b →
    w ++ gap ++ o ++ gap' ++ ds ++ blanks ++ Era.text e ++ [b] <:+: toLower text → 1401 ≤ writtenYear n e ∧ writtenYear n e ≤ 9998
  /-- A time with seconds has less than 60 minutes and at most 24 hours (the colon may be the full-width one, and the first a full stop), … -/
  seconds : ∀ hh sep mm mi sep' ss s, (hh = txt!"noon" ∨ hh = txt!"midnight" ∨ ∃ h, Number hh h) → sep ∈ [txt!".", txt!":", [239, 188, 154]] →
    Number mm mi → sep' ∈ [txt!":", [239, 188, 154]] → Number ss s → hh ++ sep ++ mm ++ sep' ++ ss <:+: toLower text →
    mi < 60 ∧ ∀ h, Number hh h → h ≤ 24
  /-- … and at most 12 hours if an `a`, a `p` or an `o` follows (as in `am`, `pm`, `o'clock`). -/
  secondsHalf : ∀ hh h sep mm mi sep' ss s fraction blanks l, Number hh h → sep ∈ [txt!".", txt!":", [239, 188, 154]] →
    Number mm mi → sep' ∈ [txt!":", [239, 188, 154]] → Number ss s → (fraction = [] ∨ ∃ ds n, fraction = txt!"." ++ ds ∧ Number ds n) →
    Blanks blanks → l ∈ [97, 111, 112] → hh ++ sep ++ mm ++ sep' ++ ss ++ fraction ++ blanks ++ [l] <:+: toLower text → h ≤ 12

end Chrono.Spec
