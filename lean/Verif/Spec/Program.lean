import Verif.Model.Main
import Verif.Spec.Spans
import Verif.Lemmas.Tac
import Mathlib.Data.List.Forall2
/-!
# Specification vocabulary: the parsers of the library, letter case
-/
namespace Chrono.Spec
open Chrono

/-- All thirteen parsers: the twelve that `main` uses (time.cpp:57) and `ENRelativeDateFormatParser`. -/
def allParsers : List Parser := mainParsers ++ [relativeParser]

/-- The bytes are equal, or the same letter in different case. -/
def SameLetter (c d : Nat) : Prop :=
  c = d ∨ (65 ≤ c ∧ c ≤ 90 ∧ d = c + 32) ∨ (65 ≤ d ∧ d ≤ 90 ∧ c = d + 32)

/-- The two texts differ at most in the case of ASCII letters. -/
def SameUpToCase (t t' : Text) : Prop := List.Forall₂ SameLetter t t'

end Chrono.Spec
