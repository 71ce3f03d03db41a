import Verif.Spec.Spans
/-!
# Specification vocabulary: what a pass that merges neighbours may do to a list
-/
namespace Chrono.Spec
open Chrono

/-- The mention lies inside the text (and the text is short enough for a 32-bit index). -/
def Inside (text : Text) (r : PResult) : Prop := stop r ≤ text.length ∧ text.length < 4294967296

instance (text : Text) (r : PResult) : Decidable (Inside text r) := by unfold Inside; infer_instance

/-- The mention is of a date without a definite hour / of a time without a definite month and day, as told by
`isCertain` on the start. -/
def DateOnly (r : PResult) : Prop := r.startDate.isCertainName txt!"hour" = false
def TimeOnly (r : PResult) : Prop :=
  r.startDate.isCertainName txt!"month" = false ∧ r.startDate.isCertainName txt!"mday" = false

instance (r : PResult) : Decidable (DateOnly r) := by unfold DateOnly; infer_instance
instance (r : PResult) : Decidable (TimeOnly r) := by unfold TimeOnly; infer_instance

/-- One of the two is a date and the other a time. -/
def DateTimePair (a b : PResult) : Prop := (DateOnly a ∧ TimeOnly b) ∨ (DateOnly b ∧ TimeOnly a)

instance (a b : PResult) : Decidable (DateTimePair a b) := by unfold DateTimePair; infer_instance

/-- `Neighbours P l`: `P` holds of every two neighbours of `l`. -/
def Neighbours (P : PResult → PResult → Prop) : List PResult → Prop
  | a :: b :: l => P a b ∧ Neighbours P (b :: l)
  | _ => True

/-- `out` arises from `inp` by replacing some disjoint neighbouring pairs `a, b` by a merge `m` with
`M a b m`, everything else staying in place and in order; but when the last pair is merged, its second
element stays as well. -/
inductive MergePass (M : PResult → PResult → PResult → Prop) : List PResult → List PResult → Prop where
  | nil : MergePass M [] []
  | keep {r inp out} : MergePass M inp out → MergePass M (r :: inp) (r :: out)
  | merge {a b m r inp out} : M a b m → MergePass M (r :: inp) out → MergePass M (a :: b :: r :: inp) (m :: out)
  | mergeLast {a b m} : M a b m → MergePass M [a, b] [m, b]

end Chrono.Spec
