import Verif.Props.P68_MonthDayInText
import Verif.Props.P41_NewYearsEve
import Verif.Props.P48_Lives
import Verif.Props.P32_MonthWitnesses

/-!
# Instances

For theorems whose own file shows no concrete case: each `example` below gives one that meets every hypothesis of the theorem it names.
The machine is `Rt.usual 0`, the clock shows 2019-03-15 00:30.
-/

namespace Chrono.Props
open Chrono Chrono.Spec Chrono.Boost

theorem usual_benign : (Rt.usual 0).Benign := fun _ => rfl
theorem usual_stops : (Rt.usual 0).Stops := ⟨by simp [Rt.usual], by simp [Rt.usual]⟩
theorem usual_defined : Rt.Defined (Rt.usual 0) := ⟨fun _ => rfl, ⟨0, rfl⟩, fun c => ⟨c, rfl⟩⟩
theorem exampleRef_reads : RefReads exampleRef ⟨2019, 3, 15, 0, 30, 0⟩ := by
  refine ⟨?_, ?_, ?_, ?_⟩ <;> decide +kernel

/-- The parser returns results that pass the test. -/
def returns (P : Parser) (text : Text) (test : List PResult → Bool) : Bool :=
  match execute (Rt.usual 0) P integerWords text exampleRef with | .ok (rs, _) => test rs | _ => false

theorem returns_ok {P : Parser} {text : Text} {test : List PResult → Bool} (h : returns P text test = true) :
    ∃ rs g, execute (Rt.usual 0) P integerWords text exampleRef = .ok (rs, g) ∧ test rs = true := by
  unfold returns at h
  split at h
  · exact ⟨_, _, ‹_›, h⟩
  · exact absurd h (by simp)

/-! ## C15: several results in one text -/

example : ∃ rs g, execute (Rt.usual 0) timeExprParser integerWords txt!"Lunch at 9:30 pm, or 10:45, or noon" exampleRef = .ok (rs, g) ∧
    rs.length = 3 ∧ rs.Pairwise (fun a b => a.index < b.index ∧ a.index + a.textLength ≤ b.index) := by
  obtain ⟨rs, g, h, hl⟩ := returns_ok (P := timeExprParser) (text := txt!"Lunch at 9:30 pm, or 10:45, or noon") (test := fun rs => rs.length == 3)
    (by decide +kernel)
  exact ⟨rs, g, h, by simpa using hl, (c15_spans_inside_ordered_disjoint timeExprParser (by simp [allParsers, mainParsers]) _ usual_benign usual_stops _ _ _ _ (by decide) rs h).2⟩


/-! ## C29 to C31: month names in a text -/

/-- `c30_month_without_year`: `It was cold in March, I think` has such a result … -/
example : ∃ rs g, execute (Rt.usual 0) monthNameParser integerWords txt!"It was cold in March, I think" exampleRef = .ok (rs, g) ∧
    ∃ r ∈ rs, r.startDate.certain .year = false := by
  obtain ⟨rs, g, h, hl⟩ := returns_ok (P := monthNameParser) (text := txt!"It was cold in March, I think")
    (test := fun rs => rs.any fun r => !r.startDate.certain .year) (by decide +kernel)
  obtain ⟨r, hr, hc⟩ := List.any_eq_true.1 hl
  exact ⟨rs, g, h, r, hr, by simpa using hc⟩

/-- … and `c31_month_with_year`: `march 2018 was cold` one with a certain year. -/
example : ∃ rs g, execute (Rt.usual 0) monthNameParser integerWords txt!"march 2018 was cold" exampleRef = .ok (rs, g) ∧
    ∃ r ∈ rs, r.startDate.certain .year = true ∧ r.startDate.get .year = 2018 ∧ r.startDate.get .month = 3 := by
  obtain ⟨rs, g, h, hl⟩ := returns_ok (P := monthNameParser) (text := txt!"march 2018 was cold")
    (test := fun rs => rs.any fun r => r.startDate.certain .year && (r.startDate.get .year == 2018) && (r.startDate.get .month == 3))
    (by decide +kernel)
  obtain ⟨r, hr, hc⟩ := List.any_eq_true.1 hl
  simp only [Bool.and_eq_true, beq_iff_eq] at hc
  exact ⟨rs, g, h, r, hr, hc.1.1, hc.1.2, hc.2⟩

/-- `c30_month_day_partial` and `c31_month_day`: the result of `Back on March 9th we left` has no four digits and no era. -/
example : ∃ rs g, execute (Rt.usual 0) middleEndianParser integerWords txt!"Back on March 9th we left" exampleRef = .ok (rs, g) ∧
    ∃ r ∈ rs, (∀ ds, ds <:+: r.text → ds.length = 4 → ¬ IsDigits ds) ∧ ¬ txt!"ad" <:+: r.text ∧ ¬ txt!"bc" <:+: r.text ∧
      MonthDay ⟨2019, 3, 15, 0, 30, 0⟩ r.startDate r.text := by
  obtain ⟨rs, g, h, hl⟩ := returns_ok (P := middleEndianParser) (text := txt!"Back on March 9th we left")
    (test := fun rs => rs.any fun r => r.text == txt!"march 9th ") (by decide +kernel)
  obtain ⟨r, hr, hc⟩ := List.any_eq_true.1 hl
  have hc : r.text = txt!"march 9th " := by simpa using hc
  refine ⟨rs, g, h, r, hr, ?_, ?_, ?_, c31_month_day _ usual_benign _ _ _ _ _ exampleRef_reads rs h r hr⟩
  · rintro ds ⟨a, b, e⟩ hl hd
    have hk : ds = (r.text.drop a.length).take 4 := by rw [← e, ← hl]; simp
    rw [hc] at hk e
    have hle : a.length ≤ 6 := by have := congrArg List.length e; simp [hl] at this; omega
    have hn : ∀ k ≤ 6, ((txt!"march 9th ").drop k).take 4 |>.any (fun c => !(48 ≤ c && c ≤ 57)) := by decide +kernel
    obtain ⟨c, h1, h2⟩ := List.any_eq_true.1 (hn _ hle)
    rw [← hk] at h1
    have := hd.2 c h1
    simp at h2
    omega
  · rw [hc]; decide +kernel
  · rw [hc]; decide +kernel

/-- `c30_month_phrase` and `c64_month_printed`. -/
example : Yields (execute (Rt.usual 0) monthNameParser integerWords txt!"sept." exampleRef) txt!"sept."
    (NearestMonth ⟨2019, 3, 15, 0, 30, 0⟩ 9) :=
  c30_month_phrase _ usual_benign _ _ _ exampleRef_reads (by decide) (by decide) txt!"sept." 9 (by decide) (by decide)

/-- `c31_month_year_partial`: a year BE. -/
example : Yields (execute (Rt.usual 0) monthNameParser integerWords txt!"march 2560be" exampleRef) txt!"march 2560be"
    (fun r => r.startDate.get .year = 2017 ∧ r.startDate.get .month = 3) := by
  obtain ⟨r, g, h1, h2, h3, h4, h5, -⟩ := c31_month_year_partial (Rt.usual 0) usual_benign integerWords exampleRef txt!"march" 3 (by decide) (by decide)
    2560 (by decide) (txt!"be", .be) (by decide) (by decide)
  exact ⟨r, g, h1, h2, h3, h4, h5⟩

/-- `c30_month_day_phrase_partial`: `february 28th at noon`, read in 2020. -/
example : Yields (execute (Rt.usual 0) middleEndianParser integerWords txt!"february 28th at noon" (dayRef 2020 5 1)) txt!"february 28th "
    (fun r => ∃ y, DateIs r.startDate (y, 2, 28) ∧ NearestYear (2020, 5, 1) 2 28 y) := by
  obtain ⟨r, g, h1, h2, h3, y, h4, h5, -⟩ := c30_month_day_phrase_partial (Rt.usual 0) usual_benign integerWords (dayRef 2020 5 1) ⟨2020, 5, 1, 0, 0, 0⟩
    (by refine ⟨?_, ?_, ?_, ?_⟩ <;> decide +kernel) (by decide) (by decide) txt!"february" 2 (by decide) (by decide) false 28 (by decide) (by decide) (by decide)
    (by decide) txt!"th" (by decide) txt!"at noon" (by decide)
  exact ⟨r, g, h1, h2, h3, y, h4, h5⟩

/-- `c31_full_date_partial`: `december 31 1999 ad at noon`. -/
example : Yields (execute (Rt.usual 0) middleEndianParser integerWords (fullDate txt!"december" txt!"31" 1999 txt!" ad" txt!"at noon") exampleRef)
    (fullDatePart txt!"december" txt!"31" 1999 txt!" ad")
    (fun r => r.startDate.get .year = 1999 ∧ r.startDate.get .month = 12 ∧ r.startDate.get .mday = 31) := by
  obtain ⟨r, g, h1, h2, h3, h4, h5, h6, -⟩ := c31_full_date_partial (Rt.usual 0) usual_benign integerWords exampleRef txt!"december" 12 (by decide) (by decide)
    false 31 (by decide) (by decide) (by decide) 1999 (by decide) (txt!" ad", .ad) (by decide) (by decide)
  exact ⟨r, g, h1, h2, h3, h4, h5, h6⟩

/-! ## C33 to C35: clock times -/

/-- `c33_single_times_partial`: a text without a range, with two times. -/
example : NoSeparator txt!"lunch is 9:30 pm, or noon" ∧
    ∃ rs g, execute (Rt.usual 0) timeExprParser integerWords txt!"lunch is 9:30 pm, or noon" exampleRef = .ok (rs, g) ∧ rs.length = 2 := by
  refine ⟨?_, ?_⟩
  · have : rangeSeparators.all (fun s => decide (¬ s <:+: toLower txt!"lunch is 9:30 pm, or noon")) = true := by decide +kernel
    intro s hs
    simpa using List.all_eq_true.1 this s hs
  · obtain ⟨rs, g, h, hl⟩ := returns_ok (P := timeExprParser) (text := txt!"lunch is 9:30 pm, or noon") (test := fun rs => rs.length == 2) (by decide +kernel)
    exact ⟨rs, g, h, by simpa using hl⟩

/-- `c34_range_hours_partial`: a range. -/
example : ∃ rs g, execute (Rt.usual 0) timeExprParser integerWords txt!"open 9:30 - 11:15 daily" exampleRef = .ok (rs, g) ∧
    ∃ r ∈ rs, r.hasEnd = true ∧ IsClock 36 ⟨2019, 3, 15, 0, 30, 0⟩ r := by
  obtain ⟨rs, g, h, hl⟩ := returns_ok (P := timeExprParser) (text := txt!"open 9:30 - 11:15 daily")
    (test := fun rs => rs.any fun r => r.hasEnd && r.startDate.certain .hour) (by decide +kernel)
  obtain ⟨r, hr, hc⟩ := List.any_eq_true.1 hl
  simp only [Bool.and_eq_true] at hc
  refine ⟨rs, g, h, r, hr, hc.1, ?_⟩
  rcases c34_range_hours_partial _ usual_benign usual_stops _ _ _ _ _ exampleRef_reads rs h r hr with h' | h'
  · exact h'
  · exact absurd hc.1 (by simp [h'.endd])

/-! ## C23 to C26: deadlines -/

/-- `c23_days_and_weeks`: over a leap day. -/
example : Yields (execute (Rt.usual 0) deadlineParser integerWords txt!"within 50 weeks" exampleRef) txt!"within 50 weeks"
    (fun r => DateIs r.startDate (2020, 2, 28)) := by
  obtain ⟨r, g, h1, h2, h3, h4, -⟩ := c23_days_and_weeks (Rt.usual 0) usual_benign integerWords exampleRef _ exampleRef_reads txt!"within" txt!"50" 50 (txt!"weeks", 7)
    (by decide) (.inl ⟨⟨by simp, by decide⟩, by decide⟩) (by decide) (by decide +kernel) (by decide +kernel)
  exact ⟨r, g, h1, h2, h3, (show daysLater (7 * 50) (2019, 3, 15) = (2020, 2, 28) by decide +kernel) ▸ h4⟩

/-- `c23_months_and_years`: a number word, and a month that is too short. -/
example : Yields (execute (Rt.usual 0) deadlineParser integerWords txt!"in eleven months" exampleRef) txt!"in eleven months"
    (fun r => DateIs r.startDate (2020, 2, 15)) := by
  obtain ⟨r, g, h1, h2, h3, h4, -⟩ := c23_months_and_years (Rt.usual 0) usual_benign integerWords exampleRef _ exampleRef_reads txt!"in" txt!"eleven" 11
    (txt!"months", 1) (by decide) (.inr (by decide)) (by decide) (by decide +kernel) (by decide) (by decide +kernel)
  exact ⟨r, g, h1, h2, h3, (show monthsLater (1 * 11) (2019, 3, 15) = (2020, 2, 15) by decide +kernel) ▸ h4⟩

/-- `c24_time_of_day_partial` and `c24_same_day_partial`. -/
example : Yields (execute (Rt.usual 0) deadlineParser integerWords txt!"in 20 seconds" exampleRef) txt!"in 20 seconds"
    (fun r => DateIs r.startDate (2019, 3, 15) ∧ TimeIs r.startDate 0 30 20) := by
  obtain ⟨r, g, h1, h2, h3, h4, h5, -⟩ := c24_same_day_partial (Rt.usual 0) usual_benign integerWords exampleRef _ exampleRef_reads txt!"in" txt!"20" 20
    (txt!"seconds", 1) (by decide) (.inl ⟨⟨by simp, by decide⟩, by decide⟩) (by decide) (by decide +kernel) (by decide) (by decide +kernel)
  have e : DateTime.secondsLater (1 * 20) ⟨2019, 3, 15, 0, 30, 0⟩ = ⟨2019, 3, 15, 0, 30, 20⟩ := by decide +kernel
  rw [show DateTime.secondsLater ((txt!"seconds", 1).2 * 20) ⟨2019, 3, 15, 0, 30, 0⟩ = ⟨2019, 3, 15, 0, 30, 20⟩ from e] at h4 h5
  exact ⟨r, g, h1, h2, h3, h4, h5⟩

/-- `c26_half_week_month_year`. -/
example : Yields (execute (Rt.usual 0) deadlineParser integerWords txt!"in half a year" exampleRef) txt!"in half a year"
    (fun r => DateIs r.startDate (2019, 9, 15)) := by
  obtain ⟨r, g, h1, h2, h3, h4, -⟩ := c26_half_week_month_year (Rt.usual 0) usual_benign integerWords exampleRef _ exampleRef_reads txt!"in" txt!"half a"
    (by decide) (by decide) (by decide +kernel) (txt!"year", monthsLater 6 (2019, 3, 15)) (by simp [DateTime.date]) (by decide +kernel)
  exact ⟨r, g, h1, h2, h3, by rwa [show monthsLater 6 (2019, 3, 15) = (2019, 9, 15) by decide +kernel] at h4⟩

/-! ## C53, C58 and C78: the program -/

/-- `c53_invalid_iff_nothing_found`: both answers occur. -/
example : mainRun (Rt.usual 0) sortKeep txt!"hello world" exampleRef = .ok invalidLine ∧
    ∃ d, mainRun (Rt.usual 0) sortKeep txt!"see you tomorrow" exampleRef = .ok (foundLine ++ d) := by
  refine ⟨?_, ?_⟩
  · exact printed_ok (by decide +kernel)
  · exact ⟨_, printed_ok (t := foundLine ++ txt!"2019-Mar-15 00:00:00") (by decide +kernel)⟩

theorem allReturn_unique {rt : Rt} {ref : PTime} {text : Text} : ∀ {ps : List Parser} {a b : List (List PResult)},
    List.Forall₂ (ParserReturns rt ref text) ps a → List.Forall₂ (ParserReturns rt ref text) ps b → a = b
  | _, _, _, .nil, .nil => rfl
  | _, _, _, .cons h t, .cons h' t' => by rw [parserReturns_unique h h', allReturn_unique t t']

/-- `c58_sort_ties_do_not_matter`: `today at 9:30 in march, maybe` has three mentions, no two of them at the same place with the same length. -/
example : (∃ rss, List.Forall₂ (ParserReturns (Rt.usual 0) exampleRef txt!"today at 9:30 in march, maybe") mainParsers rss ∧ rss.flatten.length = 3) ∧
    ∀ rss, List.Forall₂ (ParserReturns (Rt.usual 0) exampleRef txt!"today at 9:30 in march, maybe") mainParsers rss →
      rss.flatten.Pairwise (fun a b => ¬ (a.index = b.index ∧ a.textLength = b.textLength)) := by
  have h : (match runParsers (Rt.usual 0) exampleRef mainParsers integerWords txt!"today at 9:30 in march, maybe" with
      | .ok (rs, _) => decide (rs.length = 3 ∧ rs.Pairwise (fun a b => ¬ (a.index = b.index ∧ a.textLength = b.textLength)))
      | _ => false) = true := by decide +kernel
  split at h
  · rename_i rs g he
    simp only [decide_eq_true_eq] at h
    obtain ⟨rss, h1, rfl⟩ := runParsers_main.1 ⟨g, he⟩
    exact ⟨⟨rss, h1, h.1⟩, fun rss' h' => by rw [allReturn_unique h' h1]; exact h.2⟩
  · exact absurd h (by simp)

/-- `c78_presentable_mentions_are_printed`: the mention of `tomorrow` in `see you tomorrow`. -/
example : ∃ rs g, execute (Rt.usual 0) casualDateParser integerWords txt!"see you tomorrow" exampleRef = .ok (rs, g) ∧ rs.length = 1 ∧
    ∀ r ∈ rs, Presentable r ∧ NoTimeRange r := by
  obtain ⟨rs, ⟨g, h⟩, hp⟩ := casualDate_lives usual_benign (x := ⟨2019, 3, 15, 0, 30, 0⟩) ⟨exampleRef_reads, by decide, by decide⟩ txt!"see you tomorrow"
  obtain ⟨rs', g', h', hl⟩ := returns_ok (P := casualDateParser) (text := txt!"see you tomorrow") (test := fun rs => rs.length == 1) (by decide +kernel)
  rw [h] at h'
  simp only [Out.ok.injEq, Prod.mk.injEq] at h'
  exact ⟨rs, g, h, by rw [h'.1]; simpa using hl, hp⟩

end Chrono.Props
