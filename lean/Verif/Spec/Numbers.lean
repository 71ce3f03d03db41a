import Verif.Spec.DateWords
/-!
# Specification vocabulary: numbers in a text

Nothing here refers to the model.
-/
namespace Chrono.Spec
open Chrono

/-- A decimal digit. -/
def Digit (c : Nat) : Prop := 48 ≤ c ∧ c ≤ 57

/-- `D` is a number in the text `A ++ D ++ B`: digits, with no digit before and no digit after them. -/
def IsNumber (A D B : Text) : Prop :=
  D ≠ [] ∧ (∀ c ∈ D, Digit c) ∧ (∀ c, A.getLast? = some c → ¬ Digit c) ∧ ∀ c, B.head? = some c → ¬ Digit c

/-- The value of a number. -/
def valueOf (D : Text) : Nat := D.foldl (fun n c => 10 * n + (c - 48)) 0

/-- Neither an hour (0 to 24) nor, in three or four digits, an hour and a minute. -/
def NoHour (n : Nat) : Prop := 24 < n ∧ (n ≤ 100 ∨ 24 < n / 100 ∨ 60 ≤ n % 100)

/-- No number of the text is a time of day, or part of a date. -/
structure NoNumberIsATime (text : Text) : Prop where
  /-- Every number has more than four digits, or is glued to a letter (other than `t` and `m`) or `_` before it or to a letter (other than `a`, `p` and `o`) or `_` after it,
  or its value is no hour. -/
  numbers : ∀ A D B, toLower text = A ++ D ++ B → IsNumber A D B → 4 < D.length ∨ (∃ c, A.getLast? = some c ∧ WordChar c ∧ c ≠ 116 ∧ c ≠ 109) ∨
    (∃ c, B.head? = some c ∧ WordChar c ∧ c ≠ 97 ∧ c ≠ 112 ∧ c ≠ 111) ∨ NoHour (valueOf D)
  /-- No colon (or full-width colon, in UTF-8) between digits. -/
  colons : ∀ c d, Digit c → Digit d → ∀ colon ∈ [txt!":", [239, 188, 154]], ¬ [c] ++ colon ++ [d] <:+: toLower text
  /-- No number follows the name of a month. -/
  months : ∀ w m gap c, monthWord w m = true → Gap gap → Digit c → ¬ w ++ gap ++ [c] <:+: toLower text

/-- After blanks comes the end of the text, or a character that is no letter, digit, underscore or hyphen. -/
def NoWordNext (s : Text) : Prop := ∀ g c r, Blanks g → s = g ++ c :: r → ¬ WordChar c ∧ c ≠ 45

end Chrono.Spec
