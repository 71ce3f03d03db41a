import Verif.Props.P22_Deadline
/-!
# C62: deadlines, end to end
-/
namespace Chrono.Props
open Chrono Chrono.Spec Chrono.Boost

theorem toLower_deadline_digits {w num u : Text} (hw : w ∈ deadlineWords) (hn : IsDigits num) (hu : u ∈ deadlineUnits) :
    toLower (deadlineText w num u) = deadlineText w num u := toLower_deadline hw (.inl ⟨hn, rfl⟩) hu

/-- **C62 (days, weeks).** Run on `in N days` (or `within`, `week(s)`), `N` in digits, however many, the program prints
the date `N` days (`7 N` days) after the reference date, at 00:00:00. -/
theorem c62_days_and_weeks_printed (rt : Rt) (hrt : Rt.Defined rt) (sort : List PResult → List PResult) (hs : Sorts sort)
    (ref : PTime) (x : DateTime) (hx : RefReads ref x) (w num : Text) (u : Text × Nat) (hw : w ∈ deadlineWords)
    (hn : IsDigits num) (hu : u ∈ dayUnits) (hlen : (deadlineText w num u.1).length < 4294967296)
    (hy : (daysLater (u.2 * decimalValue num) x.date).1 ≤ 9999) :
    mainRun rt sort (deadlineText w num u.1) ref =
      .ok (foundLine ++ (midnight (daysLater (u.2 * decimalValue num) x.date)).format) := by
  have hu1 : u.1 ∈ dateUnits := by
    simp only [dayUnits, List.mem_cons, List.not_mem_nil, or_false] at hu
    rcases hu with rfl | rfl | rfl | rfl <;> decide
  obtain ⟨hc, -⟩ := refReads_us hx
  obtain ⟨a, b, -⟩ := daysLater_civil (u.2 * decimalValue num) (Nat.le_trans (by decide) hc.1) hc.2.2
  refine prints_date hrt hs hlen hx 1 (P := deadlineParser) rfl
    (t := midnight (daysLater (u.2 * decimalValue num) x.date)) ⟨⟨Nat.le_trans hc.1 b, hy, a⟩, by simp [midnight], by simp [midnight], by simp [midnight]⟩
    (c23_days_and_weeks rt hrt.stale integerWords ref x hx w num _ u hw (.inl ⟨hn, rfl⟩) hu rfl hy)
    (fun r hr => hr) ?_
  rw [toLower_deadline_digits hw hn (mem_deadlineUnits hu1)]
  exact deadline_others hw hn (mem_deadlineUnits hu1)

/-- **C62 (months, years).** -/
theorem c62_months_and_years_printed (rt : Rt) (hrt : Rt.Defined rt) (sort : List PResult → List PResult) (hs : Sorts sort)
    (ref : PTime) (x : DateTime) (hx : RefReads ref x) (w num : Text) (u : Text × Nat) (hw : w ∈ deadlineWords)
    (hn : IsDigits num) (hu : u ∈ monthUnits) (hlen : (deadlineText w num u.1).length < 4294967296)
    (h16 : u.2 * decimalValue num ≤ 32767) (hy : (monthsLater (u.2 * decimalValue num) x.date).1 ≤ 9999) :
    mainRun rt sort (deadlineText w num u.1) ref =
      .ok (foundLine ++ (midnight (monthsLater (u.2 * decimalValue num) x.date)).format) := by
  have hu1 : u.1 ∈ dateUnits := by
    simp only [monthUnits, List.mem_cons, List.not_mem_nil, or_false] at hu
    rcases hu with rfl | rfl | rfl | rfl <;> decide
  obtain ⟨D, h1, h2⟩ := addMonths_later hx.date h16 hy
  refine prints_date hrt hs hlen hx 1 (P := deadlineParser) rfl
    (t := midnight (monthsLater (u.2 * decimalValue num) x.date)) ⟨(Date.of_ymd h2).1, by simp [midnight], by simp [midnight], by simp [midnight]⟩
    (c23_months_and_years rt hrt.stale integerWords ref x hx w num _ u hw (.inl ⟨hn, rfl⟩) hu rfl h16 hy)
    (fun r hr => hr) ?_
  rw [toLower_deadline_digits hw hn (mem_deadlineUnits hu1)]
  exact deadline_others hw hn (mem_deadlineUnits hu1)

/-- **C62 (hours, minutes, seconds).** When midnight is not crossed, the program prints the instant `N` hours (minutes,
seconds) after the reference time. -/
theorem c62_times_printed (rt : Rt) (hrt : Rt.Defined rt) (sort : List PResult → List PResult) (hs : Sorts sort)
    (ref : PTime) (x : DateTime) (hx : RefReads ref x) (w num : Text) (u : Text × Nat) (hw : w ∈ deadlineWords)
    (hn : IsDigits num) (hu : u ∈ secondUnits) (hlen : (deadlineText w num u.1).length < 4294967296)
    (hsm : decimalValue num < 16777216) (hd : (x.secondsLater (u.2 * decimalValue num)).date = x.date) :
    mainRun rt sort (deadlineText w num u.1) ref = .ok (foundLine ++ (x.secondsLater (u.2 * decimalValue num)).format) := by
  have hu1 : u.1 ∈ timeUnits ++ shortUnits := by
    simp only [secondUnits, List.mem_cons, List.not_mem_nil, or_false] at hu
    rcases hu with rfl | rfl | rfl | rfl | rfl | rfl <;> decide
  have hy : (x.secondsLater (u.2 * decimalValue num)).year ≤ 9999 := by
    have : (x.secondsLater (u.2 * decimalValue num)).year = x.year := congrArg (·.1) hd
    rw [this]; exact hx.valid.1.2.1
  have hp := (hx.secondsLater _ hy).valid
  refine prints_date hrt hs hlen hx 1 (P := deadlineParser) rfl (t := x.secondsLater (u.2 * decimalValue num)) hp
    (c24_same_day_partial rt hrt.stale integerWords ref x hx w num _ u hw (.inl ⟨hn, rfl⟩) hu rfl hsm hd) (fun r hr => hr) ?_
  rw [toLower_deadline_digits hw hn (mem_deadlineUnits' hu1)]
  exact deadline_others hw hn (mem_deadlineUnits' hu1)

/-! ## The hypotheses are met -/

example : IsDigits txt!"0045" ∧ decimalValue txt!"0045" = 45 ∧ deadlineText txt!"in" txt!"0045" txt!"days" = txt!"in 0045 days" := by
  refine ⟨⟨by simp, by decide⟩, by decide, by decide⟩
example : IsNumeral txt!"a few" 3 ∧ IsNumeral txt!"twelve" 12 ∧ (txt!"weeks", 7) ∈ dayUnits := by
  refine ⟨.inr (by decide), .inr (by decide), by decide⟩
example : daysLater (1 * 45) (2019, 12, 15) = (2020, 1, 29) ∧ monthsLater (12 * 1) (2020, 2, 29) = (2021, 2, 28) := by decide
example : (DateTime.secondsLater (60 * 2) ⟨2019, 3, 15, 0, 30, 0⟩) = ⟨2019, 3, 15, 0, 32, 0⟩ := by decide +kernel
example : printed (mainRun (Rt.usual 0) sortKeep txt!"in 0045 days" exampleRef) txt!"Date:\t2019-Apr-29 00:00:00" = true := by decide +kernel
example : printed (mainRun (Rt.usual 0) sortKeep txt!"within 2 minutes" exampleRef) txt!"Date:\t2019-Mar-15 00:32:00" = true := by decide +kernel
example : deadlineText txt!"in" txt!"half an" txt!"hour" = txt!"in half an hour" := by decide

end Chrono.Props
