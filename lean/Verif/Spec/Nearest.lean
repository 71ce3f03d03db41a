import Verif.Spec.Calendar
import Verif.Base.Text
/-!
# Specification: which year a month and day without a year belong to
-/
namespace Chrono.Spec

/-- The dates `a` and `b` are `n` days apart. -/
def Apart (a b : Nat × Nat × Nat) (n : Nat) : Prop := daysLater n a = b ∨ daysLater n b = a

/-- `y` is the previous, the same or the next year of `ref`, and among these three years none puts the month `m` and
day `d` strictly nearer to `ref`. -/
def NearestYear (ref : Nat × Nat × Nat) (m d y : Nat) : Prop :=
  (y + 1 = ref.1 ∨ y = ref.1 ∨ y = ref.1 + 1) ∧
  ∀ y', (y' + 1 = ref.1 ∨ y' = ref.1 ∨ y' = ref.1 + 1) →
    ∀ n n', Apart (y, m, d) ref n → Apart (y', m, d) ref n' → n ≤ n'

/-- What may follow a written year. -/
inductive Era where
  | unmarked | be | ad | bc
  deriving DecidableEq, Repr

/-- How the era is written (lower case; letter case does not matter). -/
def Era.text : Era → Text
  | .unmarked => [] | .be => txt!"be" | .ad => txt!"ad" | .bc => txt!"bc"

/-- The year a written number and the era after it stand for: the Buddhist era is 543 years ahead, `bc` counts
backwards, a number below 100 without era is in the 21st century. -/
def writtenYear (n : Nat) : Era → Int
  | .unmarked => if n < 100 then n + 2000 else n
  | .be => n - 543
  | .ad => n
  | .bc => -n

end Chrono.Spec
