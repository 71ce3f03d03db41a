/-!
# Specification: the Gregorian calendar, by leap-year rule and month lengths

Independent of the Boost formulas (`Verif/Boost/Date.lean`).
-/
namespace Chrono.Spec

/-- Every fourth year, but not centuries, but every fourth century. -/
def Leap (y : Nat) : Prop := y % 4 = 0 ∧ (y % 100 ≠ 0 ∨ y % 400 = 0)

instance (y : Nat) : Decidable (Leap y) := by unfold Leap; infer_instance

/-- Number of days of month `m` (1..12) in year `y`. -/
def monthLength (y : Nat) : Nat → Nat
  | 1 => 31 | 2 => if Leap y then 29 else 28 | 3 => 31 | 4 => 30 | 5 => 31 | 6 => 30
  | 7 => 31 | 8 => 31 | 9 => 30 | 10 => 31 | 11 => 30 | 12 => 31 | _ => 0

/-- `(y, m, d)` is a date of the calendar. -/
def Civil (y m d : Nat) : Prop := 1 ≤ m ∧ m ≤ 12 ∧ 1 ≤ d ∧ d ≤ monthLength y m

instance (y m d : Nat) : Decidable (Civil y m d) := by unfold Civil; infer_instance

/-- The following day. -/
def nextDay : Nat × Nat × Nat → Nat × Nat × Nat
  | (y, m, d) =>
    if d < monthLength y m then (y, m, d + 1)
    else if m < 12 then (y, m + 1, 1)
    else (y + 1, 1, 1)

/-- `n` days later. -/
def daysLater : Nat → Nat × Nat × Nat → Nat × Nat × Nat
  | 0, x => x
  | n + 1, x => daysLater n (nextDay x)

/-- Days of a year. -/
def yearLength (y : Nat) : Nat := if Leap y then 366 else 365

/-- Days in the years 1 .. y - 1. -/
def daysBeforeYear : Nat → Nat
  | 0 => 0
  | y + 1 => daysBeforeYear y + (if y = 0 then 0 else yearLength y)

/-- Days in the months 1 .. m - 1 of year `y`. -/
def daysBeforeMonth (y : Nat) : Nat → Nat
  | 0 => 0
  | m + 1 => daysBeforeMonth y m + monthLength y m

/-- Number of the day, counting 0001-01-01 as day 1. -/
def ordinal (y m d : Nat) : Nat := daysBeforeYear y + daysBeforeMonth y m + d

/-- Day of the week, 0 = Sunday .. 6 = Saturday; 0001-01-01 is a Monday in the proleptic Gregorian calendar. -/
def weekday (y m d : Nat) : Nat := ordinal y m d % 7

/-- `(y, m, d)` is the `n`-th weekday `w` of its month. -/
def IsNthWeekday (n w y m d : Nat) : Prop := Civil y m d ∧ weekday y m d = w ∧ 7 * (n - 1) < d ∧ d ≤ 7 * n

/-- `(y, m, d)` is the last weekday `w` of its month. -/
def IsLastWeekday (w y m d : Nat) : Prop := Civil y m d ∧ weekday y m d = w ∧ monthLength y m < d + 7

/-- The date `n` months later: same day of the month, clipped to the length of the month; the last day of a month
becomes the last day. -/
def monthsLater (n : Nat) : Nat × Nat × Nat → Nat × Nat × Nat
  | (y, m, d) =>
    let k := 12 * y + (m - 1) + n
    let l := monthLength (k / 12) (k % 12 + 1)
    (k / 12, k % 12 + 1, if d = monthLength y m then l else min d l)

/-- A civil date in the range Boost supports. -/
def CivilInRange (y m d : Nat) : Prop := 1400 ≤ y ∧ y ≤ 9999 ∧ Civil y m d

instance (y m d : Nat) : Decidable (CivilInRange y m d) := by unfold CivilInRange; infer_instance

end Chrono.Spec
