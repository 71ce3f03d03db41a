import Verif.Props.P25_Relative
/-!
# C40: halves in the relative-date parser
-/
namespace Chrono.Props
open Chrono Chrono.Spec Chrono.Boost

theorem rel_half {m h u : Text} (hm : m ∈ relWords) (hh : h ∈ halfWords) (hu : u ∈ relUnits) : RelFound (relText m h u) m h u := by
  refine rel_found_fixed hm ?_ hu
  simp only [halfWords, List.mem_cons, List.not_mem_nil, or_false] at hh ⊢
  rcases hh with rfl | rfl | rfl <;> simp

theorem rel_half_number {g : Globals} {h : Text} (hh : h ∈ halfWords) (hg : WordMap.lookup g h = WordMap.lookup integerWords h) :
    relativeNumber g h = .ok (some .half) := by
  unfold relativeNumber
  rw [hg]
  simp only [halfWords, List.mem_cons, List.not_mem_nil, or_false] at hh
  rcases hh with rfl | rfl | rfl <;> decide

/-- **C40 (half a week, half a month).** `next half week` is 3 days after the reference date, `next half a month` 15 days;
`last` and `past`: before it. -/
theorem c40_half_week_month (rt : Rt) (hrt : rt.Benign) (g : Globals) (ref : PTime) (x : DateTime) (hx : RefReads ref x)
    (m h : Text) (hm : m ∈ relWords) (hh : h ∈ halfWords) (hg : WordMap.lookup g h = WordMap.lookup integerWords h)
    (u : Text × Nat) (hu : u ∈ [(txt!"week", 3), (txt!"weeks", 3), (txt!"month", 15), (txt!"months", 15)])
    (z : Nat × Nat × Nat) (hz : CivilInRange z.1 z.2.1 z.2.2) (hmv : DaysMoved m u.2 x.date z) :
    Yields (execute rt relativeParser g (relText m h u.1) ref) (relText m h u.1)
      (fun r => DateIs r.startDate z ∧ TimeIs r.startDate 0 0 0 ∧ r.hasEnd = false) := by
  obtain ⟨D, h1, h2, -⟩ := daysMoved_add hx hz hmv
  have hu1 : u.1 ∈ dateUnits := by
    simp only [List.mem_cons, List.not_mem_nil, or_false] at hu
    rcases hu with rfl | rfl | rfl | rfl <;> decide
  refine rel_date_yields hrt (rel_half hm hh (List.mem_append_left _ hu1)) hm hu1 (rel_half_number hh hg) h2 fun r => ?_
  simp only [List.mem_cons, List.not_mem_nil, or_false] at hu
  rcases hu with rfl | rfl | rfl | rfl
  · show (do implyDate (r.setTag .relative) (← ref.date.addDays (relSign m (3 : Nat)))) = _
    rw [h1, Out.bind_ok]
  · show (do implyDate (r.setTag .relative) (← ref.date.addDays (relSign m (3 : Nat)))) = _
    rw [h1, Out.bind_ok]
  · show (do implyDate (r.setTag .relative) (← ref.date.addDays (relSign m (15 : Nat)))) = _
    rw [h1, Out.bind_ok]
  · show (do implyDate (r.setTag .relative) (← ref.date.addDays (relSign m (15 : Nat)))) = _
    rw [h1, Out.bind_ok]

/-- **C40 (half a year).** Six months after (before) the reference date. -/
theorem c40_half_year (rt : Rt) (hrt : rt.Benign) (g : Globals) (ref : PTime) (x : DateTime) (hx : RefReads ref x)
    (m h : Text) (hm : m ∈ relWords) (hh : h ∈ halfWords) (hg : WordMap.lookup g h = WordMap.lookup integerWords h)
    (u : Text) (hu : u ∈ [txt!"year", txt!"years"])
    (hy1 : 1400 ≤ (monthsMoved m 6 x.date).1) (hy2 : (monthsMoved m 6 x.date).1 ≤ 9999) :
    Yields (execute rt relativeParser g (relText m h u) ref) (relText m h u)
      (fun r => DateIs r.startDate (monthsMoved m 6 x.date) ∧ TimeIs r.startDate 0 0 0 ∧ r.hasEnd = false) := by
  obtain ⟨D, h1, h2⟩ := monthsMoved_add hx.date (by decide : 6 ≤ 32767) hy1 hy2
  have hu1 : u ∈ dateUnits := by
    simp only [List.mem_cons, List.not_mem_nil, or_false] at hu
    rcases hu with rfl | rfl <;> decide
  refine rel_date_yields hrt (rel_half hm hh (List.mem_append_left _ hu1)) hm hu1 (rel_half_number hh hg) h2 fun r => ?_
  simp only [List.mem_cons, List.not_mem_nil, or_false] at hu
  rcases hu with rfl | rfl
  · show (do implyDate (r.setTag .relative) (← ref.date.addMonths (relSign m (6 : Nat)))) = _
    rw [h1, Out.bind_ok]
  · show (do implyDate (r.setTag .relative) (← ref.date.addMonths (relSign m (6 : Nat)))) = _
    rw [h1, Out.bind_ok]

/-- **C40 (half an hour, half a minute).** 30 minutes, 30 seconds after (before) the reference, with the date of that instant. -/
theorem c40_half_hour_minute (rt : Rt) (hrt : rt.Benign) (g : Globals) (ref : PTime) (x : DateTime) (hx : RefReads ref x)
    (m h : Text) (hm : m ∈ relWords) (hh : h ∈ halfWords) (hg : WordMap.lookup g h = WordMap.lookup integerWords h)
    (u : Text × Nat) (hu : u ∈ [(txt!"hour", 1800), (txt!"hours", 1800), (txt!"minute", 30), (txt!"minutes", 30)])
    (z : DateTime) (hz : z.Valid) (hmv : SecondsMoved m u.2 x z) :
    Yields (execute rt relativeParser g (relText m h u.1) ref) (relText m h u.1)
      (fun r => DateIs r.startDate z.date ∧ TimeIs r.startDate z.hour z.minute z.second ∧ r.hasEnd = false) := by
  have hp := secondsMoved_add hx hz hmv
  have hu1 : u.1 ∈ timeUnits := by
    simp only [List.mem_cons, List.not_mem_nil, or_false] at hu
    rcases hu with rfl | rfl | rfl | rfl <;> decide
  refine rel_time_yields hrt (rel_half hm hh (List.mem_append_right _ hu1)) hm hu1 (rel_half_number hh hg) hp ?_
  have e : ref.addMinutes (relSign m 30) = ref.addSeconds (relSign m ((60 * 30 : Nat) : Int)) := by
    rw [relSign_mul]; rfl
  simp only [List.mem_cons, List.not_mem_nil, or_false] at hu
  rcases hu with rfl | rfl | rfl | rfl
  · show Out.ok (ref.addMinutes (relSign m 30)) = _; rw [e]
  · show Out.ok (ref.addMinutes (relSign m 30)) = _; rw [e]
  · rfl
  · rfl

theorem rel_half_day_aux (rt : Rt) (hrt : rt.Benign) (g : Globals) (ref p : PTime) (m h u : Text) (hm : m ∈ relWords) (hh : h ∈ halfWords)
    (hg : WordMap.lookup g h = WordMap.lookup integerWords h) (hu : u ∈ [txt!"day", txt!"days"]) (hpe : ref.addHours (relSign m 12) = p)
    (z : DateTime) (hp : RefReads p z) :
    Yields (execute rt relativeParser g (relText m h u) ref) (relText m h u)
      (fun r => DateIs r.startDate z.date ∧ TimeIs r.startDate z.hour z.minute 0 ∧ r.hasEnd = false) := by
  have hu1 : u ∈ dateUnits := by
    simp only [List.mem_cons, List.not_mem_nil, or_false] at hu
    rcases hu with rfl | rfl <;> decide
  obtain ⟨hl, mt, hf, h0, h2, h3, h4⟩ := rel_half hm hh (List.mem_append_left timeUnits hu1)
  have hs : searches true Pat.dwmy u = .ok true ∧ contains txt!"day" u = true := by
    simp only [List.mem_cons, List.not_mem_nil, or_false] at hu
    rcases hu with rfl | rfl <;> decide +kernel
  have hm' : m ≠ txt!"this" := by
    have : (relWords.all fun w => w != txt!"this") = true := by decide
    simpa using List.all_eq_true.1 this m hm
  obtain ⟨hc, -⟩ := refReads_us hp
  refine yields_of hrt relative_pattern relative_min hl hf (pureExtract_ok
    (r := (((PResult.mk' ref 0 (relText m h u)).setTag .relative).onStart fun c => ((c.imply .year z.year).imply .month z.month).imply .mday z.day).onStart
      fun c => (c.imply .hour z.hour).imply .min z.minute) ?_) ?_ ?_ ?_ ?_
  · unfold relativeExtract
    simp only [h0, h2, h3, h4]
    rw [rel_half_number hh hg, Out.bind_ok]
    simp only []
    rw [if_neg hm', hs.1, Out.bind_ok, if_pos rfl]
    unfold relativeDate
    simp only [hs.2, if_true]
    rw [if_neg (show ¬ FNum.half.isWhole = true by decide), hpe, implyDate_ok hp.date, Out.bind_ok, hp.hours, hp.minutes]
    rfl
  · refine hasPossibleDates_of_year ?_
    have := hc.1
    simp [get_imply]; omega
  · simp
  · simp
  · refine ⟨?_, ?_, ?_⟩
    · simp [DateIs, get_imply, DateTime.date]
    · simp [TimeIs, get_imply]
    · simp

/-- **C40 (half a day).** Twelve hours after (before) the reference, to the minute. -/
theorem c40_half_day (rt : Rt) (hrt : rt.Benign) (g : Globals) (ref : PTime) (x : DateTime) (hx : RefReads ref x)
    (m h u : Text) (hm : m ∈ relWords) (hh : h ∈ halfWords) (hg : WordMap.lookup g h = WordMap.lookup integerWords h)
    (hu : u ∈ [txt!"day", txt!"days"]) (k : Nat) (hk : k = 12 * 3600) (z : DateTime) (hz : z.Valid) (hmv : SecondsMoved m k x z) :
    Yields (execute rt relativeParser g (relText m h u) ref) (relText m h u)
      (fun r => DateIs r.startDate z.date ∧ TimeIs r.startDate z.hour z.minute 0 ∧ r.hasEnd = false) := by
  refine rel_half_day_aux rt hrt g ref _ m h u hm hh hg hu ?_ z (secondsMoved_add hx hz hmv)
  have : k = 3600 * 12 := by omega
  rw [this, relSign_mul]; rfl

/-- Two moments of the calendar with the same second number are the same. -/
theorem instant_inj {t u : DateTime} (ht : t.Wf) (hu : u.Wf) (h : instant t = instant u) : t = u := by
  obtain ⟨a1, a2, a3, a4, a5⟩ := ht
  obtain ⟨b1, b2, b3, b4, b5⟩ := hu
  have ha := fromDayNumber_dayNumber a1 a2
  have hb := fromDayNumber_dayNumber b1 b2
  unfold instant at h
  have : dayNumber t.year t.month t.day = dayNumber u.year u.month u.day ∧ t.hour = u.hour ∧ t.minute = u.minute ∧ t.second = u.second := by
    generalize dayNumber t.year t.month t.day = p at *
    generalize dayNumber u.year u.month u.day = q at *
    omega
  obtain ⟨e1, e2, e3, e4⟩ := this
  rw [e1, hb] at ha
  cases t; cases u
  simp_all

/-- The hypotheses are met: 14 March 2019 18:30, half a day and half a month on and back. -/
example : ∀ k, k = 12 * 3600 → SecondsMoved txt!"next" k ⟨2019, 3, 14, 18, 30, 0⟩ ⟨2019, 3, 15, 6, 30, 0⟩ := by
  intro k hk
  unfold SecondsMoved
  rw [if_pos rfl]
  have hw : DateTime.Wf ⟨2019, 3, 14, 18, 30, 0⟩ := by unfold DateTime.Wf; decide
  obtain ⟨a, -, c⟩ := secondsLater_wf k hw
  refine instant_inj a (by unfold DateTime.Wf; decide) (c.trans ?_)
  subst hk
  decide +kernel

example : DaysMoved txt!"past" 15 (2019, 3, 14) (2019, 2, 27) ∧ WordMap.lookup integerWords txt!"half a" = none := by
  unfold DaysMoved; decide +kernel

end Chrono.Props
