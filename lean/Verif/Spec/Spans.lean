import Verif.Model.Result
/-!
# Specification vocabulary for result lists: spans in the text
-/
namespace Chrono.Spec
open Chrono

/-- One past the last character of the mention. -/
def stop (r : PResult) : Nat := r.index + r.textLength

/-- `a` ends before `b` begins. -/
def Before (a b : PResult) : Prop := stop a ≤ b.index

/-- The two mentions share at least one character. -/
def Overlap (a b : PResult) : Prop := a.index < stop b ∧ b.index < stop a

/-- Sorted by index (`std::sort` in time.cpp:76-79). -/
def SortedByIndex (l : List PResult) : Prop := l.Pairwise (fun a b => a.index ≤ b.index)

/-- The mention is not empty. -/
def NonEmpty (r : PResult) : Prop := 0 < r.textLength

instance (r : PResult) : Decidable (NonEmpty r) := by unfold NonEmpty; infer_instance
instance (a b : PResult) : Decidable (Overlap a b) := by unfold Overlap; infer_instance

/-- `x` and `y` are linked by a chain of overlapping members of `l`. -/
inductive Linked (l : List PResult) : PResult → PResult → Prop where
  | refl (x) : Linked l x x
  | step {x y z} : x ∈ l → y ∈ l → Overlap x y → Linked l y z → Linked l x z

/-- A result with the given span (for examples). -/
def mention (i len : Nat) : PResult := { PResult.default with index := i, text := List.replicate len 97 }

end Chrono.Spec
