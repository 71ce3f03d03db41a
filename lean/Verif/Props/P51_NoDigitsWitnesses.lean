import Verif.Props.P50_NoDigits
import Verif.Props.P32_MonthWitnesses
import Mathlib.Data.List.Infix
/-!
# C78: the hypotheses are met, and each of them is needed
-/
namespace Chrono.Props
open Chrono Chrono.Spec Chrono.Boost

/-- All the pieces of a text. -/
def pieces (t : Text) : List Text := t.tails.flatMap List.inits

theorem mem_pieces {w t : Text} (h : w <:+: t) : w ∈ pieces t := by
  obtain ⟨a, b, rfl⟩ := h
  unfold pieces
  rw [List.mem_flatMap]
  exact ⟨w ++ b, (List.mem_tails _ _).2 ⟨a, by simp⟩, (List.mem_inits _ _).2 ⟨b, rfl⟩⟩

/-- The days of the month that a text names by ordinal words. -/
def daysNamed (t : Text) : List Nat :=
  let ws := (pieces t).map words
  (List.range 32).filter fun d => decide (1 ≤ d) && ws.contains (ordinalName d)

/-- The months that a text names. -/
def monthsNamed (t : Text) : List Nat :=
  (List.range 13).filter fun m => (pieces t).any fun w => monthWord w m

/-- Decides `MonthsHaveTheDays`. -/
def monthsOk (text : Text) : Bool :=
  (monthsNamed (toLower text)).all fun m => (daysNamed (toLower text)).all fun d =>
    decide (1 ≤ m ∧ m ≤ 12 ∧ (m = 2 → d ≤ 28) ∧ d ≤ monthLength 2001 m)

theorem monthsOk_sound {text : Text} (h : monthsOk text = true) : MonthsHaveTheDays text := by
  intro w m o d hw hm ho d1 d2 hn y
  have hm12 : 1 ≤ m ∧ m ≤ 12 := by
    unfold monthWord at hm
    simp only [Bool.and_eq_true, decide_eq_true_eq] at hm
    exact hm.1
  have h1 : m ∈ monthsNamed (toLower text) := by
    unfold monthsNamed
    rw [List.mem_filter]
    exact ⟨List.mem_range.2 (by omega), List.any_eq_true.2 ⟨w, mem_pieces hw, hm⟩⟩
  have h2 : d ∈ daysNamed (toLower text) := by
    unfold daysNamed
    simp only [List.mem_filter, List.mem_range, Bool.and_eq_true, decide_eq_true_eq, List.contains_iff_mem]
    exact ⟨by omega, d1, hn ▸ List.mem_map_of_mem (mem_pieces ho)⟩
  have h3 := List.all_eq_true.1 (List.all_eq_true.1 h m h1) d h2
  simp only [decide_eq_true_eq] at h3
  exact civil_year (y := 2001) h3.2.2.1 ⟨hm12.1, hm12.2, d1, h3.2.2.2⟩

/-- Decides `NoOrdinalRange`, roughly: no piece after `to` or a dash has the words of an ordinal. -/
def rangesOk (text : Text) : Bool :=
  let names := txt!"seventheenth" :: [] 
  [txt!"to", txt!"-"].all fun sep => (toLower text).tails.all fun t =>
    !(sep.isPrefixOf t) || (t.drop sep.length).inits.all fun u => (List.range (u.length + 1)).all fun n =>
      !((u.take n).all isSpaceB) || (!(names.contains (u.drop n)) && (List.range 32).all fun d => decide (d = 0) || words (u.drop n) != ordinalName d)

theorem rangesOk_sound {text : Text} (h : rangesOk text = true) : NoOrdinalRange text := by
  rintro sep hsep bl o hbl ho ⟨a, b, e⟩
  have h1 := List.all_eq_true.1 h sep hsep
  have ht : sep ++ (bl ++ (o ++ b)) ∈ (toLower text).tails := (List.mem_tails _ _).2 ⟨a, by rw [← e]; simp⟩
  have h2 := List.all_eq_true.1 h1 _ ht
  have hp : sep.isPrefixOf (sep ++ (bl ++ (o ++ b))) = true := by rw [List.isPrefixOf_iff_prefix]; exact List.prefix_append _ _
  rw [hp, List.drop_left] at h2
  simp only [Bool.not_true, Bool.false_or] at h2
  have h3 := List.all_eq_true.1 h2 (bl ++ o) ((List.mem_inits _ _).2 ⟨b, by simp⟩)
  have h4 := List.all_eq_true.1 h3 bl.length (List.mem_range.2 (by simp; omega))
  rw [List.take_left, List.drop_left] at h4
  have hb : bl.all isSpaceB = true := by
    rw [List.all_eq_true]
    intro c hc
    rcases hbl c hc with rfl | ⟨h5, h6⟩
    · rfl
    · simp [isSpaceB, h5, h6]
  rw [hb] at h4
  simp only [Bool.not_true, Bool.false_or, Bool.and_eq_true] at h4
  rcases ho with ⟨d, d1, d2, hw⟩ | rfl
  · have := List.all_eq_true.1 h4.2 d (List.mem_range.2 (by omega))
    simp [hw] at this
    omega
  · simp at h4

def noDigitsB (text : Text) : Bool := text.all fun c => !(decide (48 ≤ c ∧ c ≤ 57))
theorem noDigitsB_sound {text : Text} (h : noDigitsB text = true) : NoDigits text := by
  intro c hc
  have := List.all_eq_true.1 h c hc
  simp only [Bool.not_eq_true', decide_eq_false_iff_not] at this
  exact this

/-- The hypotheses of `c78_words_never_kill_the_program_partial` are met by a text with a casual date, a month, ordinal words, and a time of day … -/
example : NoDigits txt!"Tomorrow or on March first, lunch at noon" ∧ 92 ∉ txt!"Tomorrow or on March first, lunch at noon" ∧
    ¬ txt!"may." <:+: toLower txt!"Tomorrow or on March first, lunch at noon" ∧
    MonthsHaveTheDays txt!"Tomorrow or on March first, lunch at noon" ∧ NoOrdinalRange txt!"Tomorrow or on March first, lunch at noon" :=
  ⟨noDigitsB_sound (by decide +kernel), by decide, by decide +kernel, monthsOk_sound (by decide +kernel), rangesOk_sound (by decide +kernel)⟩

/-- … and the months and days in it are really seen. -/
example : monthsNamed (toLower txt!"Tomorrow or on March first, lunch at noon") = [3] ∧ daysNamed (toLower txt!"Tomorrow or on March first, lunch at noon") = [1] := by
  decide +kernel

/-- **C78: the unconditional claim is false**, and each hypothesis is needed: these texts without digits (all but the fourth without a
backslash) are answered with an uncaught exception, and each violates one of the conditions only. -/
theorem c78_words_refuted : ∀ t ∈ [txt!"may.", txt!"february thirtieth x", txt!"march first to third x", txt! r"jun\x"],
    NoDigits t ∧ Dies (mainRun (Rt.usual 0) sortKeep t exampleRef) := by
  intro t ht
  have : [txt!"may.", txt!"february thirtieth x", txt!"march first to third x", txt! r"jun\x"].all (fun t =>
    noDigitsB t && died (mainRun (Rt.usual 0) sortKeep t exampleRef)) = true := by decide +kernel
  have := List.all_eq_true.1 this t ht
  simp only [Bool.and_eq_true] at this
  exact ⟨noDigitsB_sound this.1, died_ok this.2⟩

example : (monthsOk txt!"may." && rangesOk txt!"may.") = true ∧ rangesOk txt!"february thirtieth x" = true ∧ monthsOk txt!"march first to third x" = true ∧
    (monthsOk txt! r"jun\x" && rangesOk txt! r"jun\x") = true := by decide +kernel

/-- 29 February in a leap year is moved to a year that has none. -/
theorem c78_leap_day_refuted :
    Dies (mainRun (Rt.usual 0) sortKeep txt!"february twenty ninth x" ⟨(dayNumber 2020 12 15 * 86400 + 1800) * 1000000⟩) :=
  died_ok (by decide +kernel)

end Chrono.Props
