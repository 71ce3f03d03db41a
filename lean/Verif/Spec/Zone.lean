import Verif.Model.Tables
/-!
# Specification vocabulary: a time-zone abbreviation at the end of a text
-/
namespace Chrono.Spec
open Chrono

/-- ASCII letter. -/
def Letter (c : Nat) : Prop := (65 ≤ c ∧ c ≤ 90) ∨ (97 ≤ c ∧ c ≤ 122)
/-- Blank, tab, newline, vertical tab, form feed, carriage return. -/
def Blank (c : Nat) : Prop := c = 32 ∨ (9 ≤ c ∧ c ≤ 13)

instance (c : Nat) : Decidable (Letter c) := by unfold Letter; infer_instance
instance (c : Nat) : Decidable (Blank c) := by unfold Blank; infer_instance

/-- `rest` consists of blanks, an optional `(`, the 2-4 letter abbreviation `abbr`, an optional `)`. -/
def ZoneSuffix (rest abbr : Text) : Prop :=
  ∃ blanks op cl : Text, rest = blanks ++ op ++ abbr ++ cl ∧ (∀ c ∈ blanks, Blank c) ∧
    (op = [] ∨ op = txt!"(") ∧ (cl = [] ∨ cl = txt!")") ∧
    2 ≤ abbr.length ∧ abbr.length ≤ 4 ∧ (∀ c ∈ abbr, Letter c)

/-- `abbr`, in any letter case, names the offset `off` (minutes) in the program's table. -/
def ZoneOffset (abbr : Text) (off : Int) : Prop := (toUpper abbr, off) ∈ tzTable

end Chrono.Spec
