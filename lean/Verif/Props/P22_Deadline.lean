import Verif.Props.P21_DeadlineText
/-!
# C23-C26: deadlines ("in N days")
-/
namespace Chrono.Props
open Chrono Chrono.Spec Chrono.Boost

theorem f32_small {n : Nat} (h : n < 16777216) : FNum.ofNat n = .int n := by
  unfold FNum.ofNat f32; rw [if_pos h]

/-- The result: the given date, implied. -/
theorem implyDate_ok {r : PResult} {D : Date} {y m d : Nat} (h : D.ymd = .ok ⟨y, m, d⟩) :
    implyDate r D = .ok (r.onStart fun c => ((c.imply .year y).imply .month m).imply .mday d) := by
  obtain ⟨h1, h2, h3, -⟩ := Date.year_of_ymd h
  unfold implyDate
  rw [h1, h2, h3]; rfl

theorem mem_deadlineUnits {u : Text} (hu : u ∈ dateUnits) : u ∈ deadlineUnits := by unfold deadlineUnits; simp [hu]
theorem mem_deadlineUnits' {u : Text} (hu : u ∈ timeUnits ++ shortUnits) : u ∈ deadlineUnits := by
  unfold deadlineUnits; rw [List.append_assoc]; exact List.mem_append_right _ hu

/-- The phrase is found by the deadline pattern, number and unit where they are. -/
def DeadlineFound (w num u : Text) : Prop :=
  toLower (deadlineText w num u) = deadlineText w num u ∧
  ∃ mt, FoundAt0 Ast.deadline (deadlineText w num u) mt ∧ mt.str 0 = deadlineText w num u ∧ mt.str 3 = num ∧ mt.str 4 = u

theorem DeadlineFound.of {w num u : Text} {n : Nat} (hw : w ∈ deadlineWords) (hn : IsNumeral num n) (hu : u ∈ deadlineUnits) :
    DeadlineFound w num u := ⟨toLower_deadline hw hn hu, deadline_found hw hn hu⟩

theorem deadline_date_yields {rt : Rt} (hrt : rt.Benign) {g : Globals} {ref : PTime} {w num u : Text} {f : FNum}
    (hw : DeadlineFound w num u) (hu : u ∈ dateUnits) (hn : deadlineNumber g num = .ok (some f))
    {D : Date} {y m d : Nat} (hD : D.ymd = .ok ⟨y, m, d⟩)
    (hx : ∀ r, deadlineDate r ref u f = implyDate r D) :
    Yields (execute rt deadlineParser g (deadlineText w num u) ref) (deadlineText w num u)
      (fun r => DateIs r.startDate (y, m, d) ∧ TimeIs r.startDate 0 0 0 ∧ r.hasEnd = false) := by
  obtain ⟨hl, mt, hf, h0, h3, h4⟩ := hw
  obtain ⟨⟨c1, -⟩, -⟩ := Date.of_ymd hD
  have hs : searches false Pat.dwmy u = .ok true := by
    have : (dateUnits.all fun u => match searches false Pat.dwmy u with | .ok b => b | _ => false) = true := by decide +kernel
    have := List.all_eq_true.1 this u hu
    revert this
    cases searches false Pat.dwmy u <;> simp
  refine yields_of hrt deadline_pattern deadline_min hl hf (pureExtract_ok
    (r := (PResult.mk' ref 0 (deadlineText w num u)).onStart fun c => ((c.imply .year y).imply .month m).imply .mday d) ?_) ?_ ?_ ?_ ?_
  · unfold deadlineExtract
    simp only [h0, h3, h4]
    rw [hn, Out.bind_ok]
    simp only []
    rw [hs, Out.bind_ok, if_pos rfl, hx, implyDate_ok hD]
  · refine hasPossibleDates_of_year ?_
    simp [get_imply]; omega
  · simp
  · simp
  · refine ⟨?_, ?_, ?_⟩
    · simp [DateIs, get_imply]
    · simp [TimeIs, get_imply]
    · simp

/-- Units of days: their length. -/
def dayUnits : List (Text × Nat) := [(txt!"day", 1), (txt!"days", 1), (txt!"week", 7), (txt!"weeks", 7)]
/-- Units of months: their length. -/
def monthUnits : List (Text × Nat) := [(txt!"month", 1), (txt!"months", 1), (txt!"year", 12), (txt!"years", 12)]

theorem dayNumber_lt {y m d : Nat} (h : CivilInRange y m d) : dayNumber y m d ≤ maxDN := dayNumber_upper h.2.1 h.2.2

/-- **C23 (days, weeks).** For every reference time, word `in` or `within`, number `n` however written, and unit of `k`
days: the phrase yields one result, covering it, dated `k * n` days after the reference date, at 00:00:00, as long as
that date is not after 9999. -/
theorem c23_days_and_weeks (rt : Rt) (hrt : rt.Benign) (g : Globals) (ref : PTime) (x : DateTime) (hx : RefReads ref x)
    (w num : Text) (n : Nat) (u : Text × Nat) (hw : w ∈ deadlineWords) (hn : IsNumeral num n) (hu : u ∈ dayUnits)
    (hg : WordMap.lookup g num = WordMap.lookup integerWords num) (hy : (daysLater (u.2 * n) x.date).1 ≤ 9999) :
    Yields (execute rt deadlineParser g (deadlineText w num u.1) ref) (deadlineText w num u.1)
      (fun r => DateIs r.startDate (daysLater (u.2 * n) x.date) ∧ TimeIs r.startDate 0 0 0 ∧ r.hasEnd = false) := by
  obtain ⟨hc, -, -, -, us, -, -, -, hrd⟩ := refReads_us hx
  obtain ⟨a, b, c⟩ := daysLater_civil (u.2 * n) (Nat.le_trans (by decide) hc.1) hc.2.2
  have hc' : CivilInRange (daysLater (u.2 * n) (x.year, x.month, x.day)).1 (daysLater (u.2 * n) (x.year, x.month, x.day)).2.1
      (daysLater (u.2 * n) (x.year, x.month, x.day)).2.2 := ⟨Nat.le_trans hc.1 b, hy, a⟩
  have hup := dayNumber_lt hc'
  have hk : n ≤ u.2 * n := by
    have : 1 ≤ u.2 := by
      simp only [dayUnits, List.mem_cons, List.not_mem_nil, or_false] at hu
      rcases hu with rfl | rfl | rfl | rfl <;> decide
    exact Nat.le_mul_of_pos_left _ this
  have hsm : n < 16777216 := by
    unfold maxDN at hup
    generalize dayNumber x.year x.month x.day = K at c
    generalize dayNumber (daysLater (u.2 * n) (x.year, x.month, x.day)).1 _ _ = L at c hup
    omega
  obtain ⟨D, h1, h2⟩ := addDays_later hc hc'
  have hu1 : u.1 ∈ dateUnits := by
    simp only [dayUnits, List.mem_cons, List.not_mem_nil, or_false] at hu
    rcases hu with rfl | rfl | rfl | rfl <;> decide
  refine deadline_date_yields hrt (.of hw hn (mem_deadlineUnits hu1)) hu1 (deadlineNumber_ok hn (by omega) hg) h2 fun r => ?_
  unfold deadlineDate
  simp only [hrd, f32_small hsm]
  rw [← hrd] at *
  simp only [dayUnits, List.mem_cons, List.not_mem_nil, or_false] at hu
  have hl : (FNum.int n).toLong = .ok (n : Int) := by simp only [FNum.toLong]; rw [if_pos (by omega)]
  rcases hu with rfl | rfl | rfl | rfl
  · rw [if_pos (by decide), if_pos (show (FNum.int n).isWhole = true from rfl), hl, Out.bind_ok]
    simp only [Nat.one_mul] at h1
    rw [h1, Out.bind_ok]
  · rw [if_pos (by decide), if_pos (show (FNum.int n).isWhole = true from rfl), hl, Out.bind_ok]
    simp only [Nat.one_mul] at h1
    rw [h1, Out.bind_ok]
  · rw [if_neg (by decide), if_pos (by decide), if_pos (show (FNum.int n).isWhole = true from rfl), hl, Out.bind_ok]
    rw [show (7 : Int) * (n : Int) = ((7 * n : Nat) : Int) by push_cast; rfl, h1, Out.bind_ok]
  · rw [if_neg (by decide), if_pos (by decide), if_pos (show (FNum.int n).isWhole = true from rfl), hl, Out.bind_ok]
    rw [show (7 : Int) * (n : Int) = ((7 * n : Nat) : Int) by push_cast; rfl, h1, Out.bind_ok]

/-- **C23 (months, years).** The same for a unit of `k` months: the date `k * n` months after the reference date (the day
clipped to the length of the month, the last day of a month staying the last day), as long as `k * n` is at most 32767
and the date not after 9999. -/
theorem c23_months_and_years (rt : Rt) (hrt : rt.Benign) (g : Globals) (ref : PTime) (x : DateTime) (hx : RefReads ref x)
    (w num : Text) (n : Nat) (u : Text × Nat) (hw : w ∈ deadlineWords) (hn : IsNumeral num n) (hu : u ∈ monthUnits)
    (hg : WordMap.lookup g num = WordMap.lookup integerWords num) (h16 : u.2 * n ≤ 32767)
    (hy : (monthsLater (u.2 * n) x.date).1 ≤ 9999) :
    Yields (execute rt deadlineParser g (deadlineText w num u.1) ref) (deadlineText w num u.1)
      (fun r => DateIs r.startDate (monthsLater (u.2 * n) x.date) ∧ TimeIs r.startDate 0 0 0 ∧ r.hasEnd = false) := by
  obtain ⟨D, h1, h2⟩ := addMonths_later hx.date h16 hy
  have hk : n ≤ u.2 * n := by
    have : 1 ≤ u.2 := by
      simp only [monthUnits, List.mem_cons, List.not_mem_nil, or_false] at hu
      rcases hu with rfl | rfl | rfl | rfl <;> decide
    exact Nat.le_mul_of_pos_left _ this
  have hu1 : u.1 ∈ dateUnits := by
    simp only [monthUnits, List.mem_cons, List.not_mem_nil, or_false] at hu
    rcases hu with rfl | rfl | rfl | rfl <;> decide
  refine deadline_date_yields hrt (.of hw hn (mem_deadlineUnits hu1)) hu1 (deadlineNumber_ok hn (by omega) hg) h2 fun r => ?_
  unfold deadlineDate
  simp only [f32_small (show n < 16777216 by omega)]
  have hl : (FNum.int n).toInt = .ok (n : Int) := by simp only [FNum.toInt]; rw [if_pos (by omega)]
  simp only [monthUnits, List.mem_cons, List.not_mem_nil, or_false] at hu
  rcases hu with rfl | rfl | rfl | rfl
  · rw [if_neg (by decide), if_neg (by decide), if_pos (by decide), if_pos (show (FNum.int n).isWhole = true from rfl), hl, Out.bind_ok]
    simp only [Nat.one_mul] at h1
    rw [h1, Out.bind_ok]
  · rw [if_neg (by decide), if_neg (by decide), if_pos (by decide), if_pos (show (FNum.int n).isWhole = true from rfl), hl, Out.bind_ok]
    simp only [Nat.one_mul] at h1
    rw [h1, Out.bind_ok]
  · rw [if_neg (by decide), if_neg (by decide), if_neg (by decide), if_pos (by decide), if_pos (show (FNum.int n).isWhole = true from rfl), hl, Out.bind_ok]
    rw [show (12 : Int) * (n : Int) = ((12 * n : Nat) : Int) by push_cast; rfl, h1, Out.bind_ok]
  · rw [if_neg (by decide), if_neg (by decide), if_neg (by decide), if_pos (by decide), if_pos (show (FNum.int n).isWhole = true from rfl), hl, Out.bind_ok]
    rw [show (12 : Int) * (n : Int) = ((12 * n : Nat) : Int) by push_cast; rfl, h1, Out.bind_ok]

/-! ## Hours, minutes, seconds -/

theorem deadline_time_yields {rt : Rt} (hrt : rt.Benign) {g : Globals} {ref : PTime} {x t : DateTime} (hx : RefReads ref x)
    {w num u : Text} {f : FNum} (hw : DeadlineFound w num u) (hu : u ∈ timeUnits ++ shortUnits)
    (hn : deadlineNumber g num = .ok (some f)) {p : PTime} (hp : RefReads p t) (hd : deadlineTime ref u f = .ok p) :
    Yields (execute rt deadlineParser g (deadlineText w num u) ref) (deadlineText w num u)
      (fun r => DateIs r.startDate x.date ∧ TimeIs r.startDate t.hour t.minute t.second ∧ r.hasEnd = false) := by
  obtain ⟨hl, mt, hf, h0, h3, h4⟩ := hw
  obtain ⟨hc, -⟩ := refReads_us hx
  have hs : searches false Pat.dwmy u = .ok false := by
    have : ((timeUnits ++ shortUnits).all fun u => match searches false Pat.dwmy u with | .ok b => !b | _ => false) = true := by
      decide +kernel
    have := List.all_eq_true.1 this u hu
    revert this
    cases searches false Pat.dwmy u <;> simp
  refine yields_of hrt deadline_pattern deadline_min hl hf (pureExtract_ok
    (r := (((PResult.mk' ref 0 (deadlineText w num u)).onStart fun c => ((c.imply .year x.year).imply .month x.month).imply .mday x.day).onStart
      fun c => ((c.imply .hour t.hour).imply .min t.minute).imply .sec t.second).setTag .deadline) ?_) ?_ ?_ ?_ ?_
  · unfold deadlineExtract
    simp only [h0, h3, h4]
    rw [hn, Out.bind_ok]
    simp only []
    rw [hs, Out.bind_ok, if_neg (by decide), hd, Out.bind_ok, implyDate_ok hx.date, Out.bind_ok, hp.hours, hp.minutes, hp.seconds]
    rfl
  · refine hasPossibleDates_of_year ?_
    have := hc.1
    simp [get_imply]; omega
  · simp
  · simp
  · refine ⟨?_, ?_, ?_⟩
    · simp [DateIs, get_imply, DateTime.date]
    · simp [TimeIs, get_imply]
    · simp

/-- Units of seconds: their length. -/
def secondUnits : List (Text × Nat) :=
  [(txt!"hour", 3600), (txt!"hours", 3600), (txt!"minute", 60), (txt!"minutes", 60), (txt!"second", 1), (txt!"seconds", 1)]

/-- **C24, proved part.** For every reference time, word, number `n < 2^24` however written, and unit of `k` seconds: the
phrase yields one result, whose time of day is that of the instant `k * n` seconds after the reference time (not after
9999) - but on the *reference date*.  Missing: the date when midnight is crossed, and numbers from 2^24 on, which are
rounded; both are false of the program (`c24_midnight_refuted`, `c24_rounding_refuted`). -/
theorem c24_time_of_day_partial (rt : Rt) (hrt : rt.Benign) (g : Globals) (ref : PTime) (x : DateTime) (hx : RefReads ref x)
    (w num : Text) (n : Nat) (u : Text × Nat) (hw : w ∈ deadlineWords) (hn : IsNumeral num n) (hu : u ∈ secondUnits)
    (hg : WordMap.lookup g num = WordMap.lookup integerWords num) (hsm : n < 16777216)
    (hy : (x.secondsLater (u.2 * n)).year ≤ 9999) :
    Yields (execute rt deadlineParser g (deadlineText w num u.1) ref) (deadlineText w num u.1)
      (fun r => DateIs r.startDate x.date ∧ TimeIs r.startDate (x.secondsLater (u.2 * n)).hour
        (x.secondsLater (u.2 * n)).minute (x.secondsLater (u.2 * n)).second ∧ r.hasEnd = false) := by
  have hp := hx.secondsLater (u.2 * n) hy
  have hu1 : u.1 ∈ timeUnits ++ shortUnits := by
    simp only [secondUnits, List.mem_cons, List.not_mem_nil, or_false] at hu
    rcases hu with rfl | rfl | rfl | rfl | rfl | rfl <;> decide
  refine deadline_time_yields hrt hx (.of hw hn (mem_deadlineUnits' hu1)) hu1 (deadlineNumber_ok hn (by omega) hg) hp ?_
  unfold deadlineTime
  have hl : (FNum.int n).toInt = .ok (n : Int) := by simp only [FNum.toInt]; rw [if_pos (by omega)]
  have hl' : (FNum.int n).ceilInt = .ok (n : Int) := by simp only [FNum.ceilInt]; rw [if_pos (by omega)]
  have e1 : ref.addHours n = ref.addSeconds ((3600 * n : Nat) : Int) := by
    unfold PTime.addHours PTime.addSeconds; congr 1
  have e2 : ref.addMinutes n = ref.addSeconds ((60 * n : Nat) : Int) := by
    unfold PTime.addMinutes PTime.addSeconds; congr 1
  have e3 : ref.addSeconds n = ref.addSeconds ((1 * n : Nat) : Int) := by rw [Nat.one_mul]
  simp only [secondUnits, List.mem_cons, List.not_mem_nil, or_false] at hu
  rcases hu with rfl | rfl | rfl | rfl | rfl | rfl
  · rw [if_pos (by decide), f32_small hsm, if_pos (show (FNum.int n).isWhole = true from rfl), hl, Out.bind_ok, e1]; rfl
  · rw [if_pos (by decide), f32_small hsm, if_pos (show (FNum.int n).isWhole = true from rfl), hl, Out.bind_ok, e1]; rfl
  · rw [if_neg (by decide), if_pos (by decide), f32_small hsm, if_pos (show (FNum.int n).isWhole = true from rfl), hl, Out.bind_ok, e2]; rfl
  · rw [if_neg (by decide), if_pos (by decide), f32_small hsm, if_pos (show (FNum.int n).isWhole = true from rfl), hl, Out.bind_ok, e2]; rfl
  · rw [if_neg (by decide), if_neg (by decide), if_pos (by decide), f32_small hsm, hl', Out.bind_ok, e3]; rfl
  · rw [if_neg (by decide), if_neg (by decide), if_pos (by decide), f32_small hsm, hl', Out.bind_ok, e3]; rfl

/-- **C24 when midnight is not crossed.** The result is then the instant `k * n` seconds after the reference. -/
theorem c24_same_day_partial (rt : Rt) (hrt : rt.Benign) (g : Globals) (ref : PTime) (x : DateTime) (hx : RefReads ref x)
    (w num : Text) (n : Nat) (u : Text × Nat) (hw : w ∈ deadlineWords) (hn : IsNumeral num n) (hu : u ∈ secondUnits)
    (hg : WordMap.lookup g num = WordMap.lookup integerWords num) (hsm : n < 16777216)
    (hd : (x.secondsLater (u.2 * n)).date = x.date) :
    Yields (execute rt deadlineParser g (deadlineText w num u.1) ref) (deadlineText w num u.1)
      (fun r => DateIs r.startDate (x.secondsLater (u.2 * n)).date ∧ TimeIs r.startDate (x.secondsLater (u.2 * n)).hour
        (x.secondsLater (u.2 * n)).minute (x.secondsLater (u.2 * n)).second ∧ r.hasEnd = false) := by
  have hy : (x.secondsLater (u.2 * n)).year ≤ 9999 := by
    have : (x.secondsLater (u.2 * n)).year = x.year := congrArg (·.1) hd
    rw [this]; exact hx.valid.1.2.1
  rw [hd]
  exact c24_time_of_day_partial rt hrt g ref x hx w num n u hw hn hu hg hsm hy

/-! ## Abbreviated units -/

/-- **C25 is false of the program**, and this is what it does instead: for every number up to 2^31 - 1 and every
abbreviated unit, the phrase yields one result, at the reference time itself. -/
theorem c25_abbreviations_ignored_partial (rt : Rt) (hrt : rt.Benign) (g : Globals) (ref : PTime) (x : DateTime)
    (hx : RefReads ref x) (w num : Text) (n : Nat) (u : Text) (hw : w ∈ deadlineWords) (hn : IsNumeral num n)
    (hu : u ∈ shortUnits) (hg : WordMap.lookup g num = WordMap.lookup integerWords num) (hsm : n ≤ 2147483647) :
    Yields (execute rt deadlineParser g (deadlineText w num u) ref) (deadlineText w num u)
      (fun r => DateIs r.startDate x.date ∧ TimeIs r.startDate x.hour x.minute x.second ∧ r.hasEnd = false) := by
  refine deadline_time_yields hrt hx (.of hw hn (mem_deadlineUnits' (List.mem_append_right _ hu))) (List.mem_append_right _ hu)
    (deadlineNumber_ok hn hsm hg) hx ?_
  unfold deadlineTime
  have h1 : (shortUnits.all fun u => !findsAtZero txt!"hour" u && !findsAtZero txt!"minute" u && !findsAtZero txt!"second" u) = true := by
    decide
  have h2 := List.all_eq_true.1 h1 u hu
  simp only [Bool.and_eq_true, Bool.not_eq_true'] at h2
  rw [if_neg (by simp [h2]), if_neg (by simp [h2]), if_neg (by simp [h2])]
  rfl

/-- Reading of a result's start: is it the given time? -/
def startsAt (o : Out (List PResult × WordMap)) (t : DateTime) : Bool :=
  match o with
  | .ok ([r], _) => (r.startDate.get .year == t.year && r.startDate.get .month == t.month && r.startDate.get .mday == t.day) &&
      (r.startDate.get .hour == t.hour && r.startDate.get .min == t.minute && r.startDate.get .sec == t.second)
  | _ => false

theorem startsAt_ok {o : Out (List PResult × WordMap)} {t : DateTime} (h : startsAt o t = true) :
    ∃ r g, o = .ok ([r], g) ∧ DateIs r.startDate t.date ∧ TimeIs r.startDate t.hour t.minute t.second := by
  unfold startsAt at h
  split at h
  · exact ⟨_, _, rfl, by simpa [DateIs, TimeIs, DateTime.date, and_assoc] using h⟩
  · cases h

/-- Friday 15 March 2019, 23:59:59. -/
def lateRef : PTime := ⟨(dayNumber 2019 3 15 * 86400 + 86399) * 1000000⟩

theorem lateRef_reads : RefReads lateRef ⟨2019, 3, 15, 23, 59, 59⟩ := by constructor <;> decide +kernel

/-- **C24 (as claimed) is false**: at 2019-03-15 23:59:59, `in 1 second` yields 2019-03-15 00:00:00 and not 2019-03-16
00:00:00, which is one second later. -/
theorem c24_midnight_refuted :
    DateTime.secondsLater 1 ⟨2019, 3, 15, 23, 59, 59⟩ = ⟨2019, 3, 16, 0, 0, 0⟩ ∧
    ∃ r g, execute (Rt.usual 0) deadlineParser integerWords txt!"in 1 second" lateRef = .ok ([r], g) ∧
      DateIs r.startDate (2019, 3, 15) ∧ TimeIs r.startDate 0 0 0 := by
  refine ⟨by decide +kernel, ?_⟩
  exact startsAt_ok (t := ⟨2019, 3, 15, 0, 0, 0⟩) (by decide +kernel)

/-- **C24 is false from 2^24 on**: `in 16777217 seconds` and `in 16777216 seconds` yield the same time. -/
theorem c24_rounding_refuted :
    ∃ r g r' g', execute (Rt.usual 0) deadlineParser integerWords txt!"in 16777217 seconds" lateRef = .ok ([r], g) ∧
      execute (Rt.usual 0) deadlineParser integerWords txt!"in 16777216 seconds" lateRef = .ok ([r'], g') ∧
      TimeIs r.startDate 4 20 15 ∧ TimeIs r'.startDate 4 20 15 := by
  obtain ⟨r, g, h1, -, h2⟩ := startsAt_ok (o := execute (Rt.usual 0) deadlineParser integerWords txt!"in 16777217 seconds" lateRef)
    (t := ⟨2019, 3, 15, 4, 20, 15⟩) (by decide +kernel)
  obtain ⟨r', g', h1', -, h2'⟩ := startsAt_ok (o := execute (Rt.usual 0) deadlineParser integerWords txt!"in 16777216 seconds" lateRef)
    (t := ⟨2019, 3, 15, 4, 20, 15⟩) (by decide +kernel)
  exact ⟨r, g, r', g', h1, h1', h2, h2'⟩

/-- **C25 (as claimed) is false**: at 23:59:59, `in 5 mins` yields 23:59:59. -/
theorem c25_refuted :
    ∃ r g, execute (Rt.usual 0) deadlineParser integerWords txt!"in 5 mins" lateRef = .ok ([r], g) ∧
      DateIs r.startDate (2019, 3, 15) ∧ TimeIs r.startDate 23 59 59 :=
  startsAt_ok (t := ⟨2019, 3, 15, 23, 59, 59⟩) (by decide +kernel)

/-! ## Half units -/

/-- Ways to write one half. -/
def halfWords : List Text := [txt!"half", txt!"half a", txt!"half an"]

theorem half_found {w h u : Text} (hw : w ∈ deadlineWords) (hh : h ∈ halfWords) (hu : u ∈ dateUnits ++ timeUnits) :
    DeadlineFound w h u := by
  have hl : (deadlineWords.all fun w => halfWords.all fun h => (dateUnits ++ timeUnits).all fun u =>
      toLower (deadlineText w h u) == deadlineText w h u) = true := by decide +kernel
  have hc : (deadlineWords.all fun w => halfWords.all fun h => (dateUnits ++ timeUnits).all fun u =>
      checkAt0 Ast.deadline (deadlineText w h u) [(0, deadlineText w h u), (3, h), (4, u)]) = true := by decide +kernel
  refine ⟨by simpa using List.all_eq_true.1 (List.all_eq_true.1 (List.all_eq_true.1 hl w hw) h hh) u hu, ?_⟩
  obtain ⟨mt, hf, hg⟩ := foundAt0 _ (List.all_eq_true.1 (List.all_eq_true.1 (List.all_eq_true.1 hc w hw) h hh) u hu)
  exact ⟨mt, hf, hg _ List.mem_cons_self, hg _ (List.mem_cons_of_mem _ List.mem_cons_self),
    hg _ (List.mem_cons_of_mem _ (List.mem_cons_of_mem _ List.mem_cons_self))⟩

theorem half_number {g : Globals} {h : Text} (hh : h ∈ halfWords) (hg : WordMap.lookup g h = WordMap.lookup integerWords h) :
    deadlineNumber g h = .ok (some .half) := by
  unfold deadlineNumber
  rw [hg]
  simp only [halfWords, List.mem_cons, List.not_mem_nil, or_false] at hh
  rcases hh with rfl | rfl | rfl <;> decide

/-- **C26 (weeks, months, years).** Half a week is 3 days, half a month 15 days, half a year 6 months. -/
theorem c26_half_week_month_year (rt : Rt) (hrt : rt.Benign) (g : Globals) (ref : PTime) (x : DateTime) (hx : RefReads ref x)
    (w h : Text) (hw : w ∈ deadlineWords) (hh : h ∈ halfWords) (hg : WordMap.lookup g h = WordMap.lookup integerWords h) :
    ∀ u ∈ [(txt!"week", daysLater 3 x.date), (txt!"weeks", daysLater 3 x.date), (txt!"month", daysLater 15 x.date),
      (txt!"months", daysLater 15 x.date), (txt!"year", monthsLater 6 x.date), (txt!"years", monthsLater 6 x.date)],
    u.2.1 ≤ 9999 →
    Yields (execute rt deadlineParser g (deadlineText w h u.1) ref) (deadlineText w h u.1)
      (fun r => DateIs r.startDate u.2 ∧ TimeIs r.startDate 0 0 0 ∧ r.hasEnd = false) := by
  obtain ⟨hc, -⟩ := refReads_us hx
  have days : ∀ n : Nat, (daysLater n x.date).1 ≤ 9999 →
      CivilInRange (daysLater n x.date).1 (daysLater n x.date).2.1 (daysLater n x.date).2.2 := by
    intro n hy
    obtain ⟨a, b, c⟩ := daysLater_civil n (Nat.le_trans (by decide) hc.1) hc.2.2
    exact ⟨Nat.le_trans hc.1 b, hy, a⟩
  have key : ∀ (u : Text), u ∈ dateUnits → ∀ (D : Date) (z : Nat × Nat × Nat), D.ymd = .ok ⟨z.1, z.2.1, z.2.2⟩ →
      (∀ r, deadlineDate r ref u .half = implyDate r D) →
      Yields (execute rt deadlineParser g (deadlineText w h u) ref) (deadlineText w h u)
        (fun r => DateIs r.startDate z ∧ TimeIs r.startDate 0 0 0 ∧ r.hasEnd = false) := fun u hu D z hD hx =>
    deadline_date_yields hrt (half_found hw hh (List.mem_append_left _ hu)) hu (half_number hh hg) hD hx
  have hrd : ref.date = ⟨dayNumber x.year x.month x.day⟩ := (refReads_us hx).2.2.2.2.elim fun _ h => h.2.2.2
  have keyD : ∀ (u : Text) (n : Nat), u ∈ dateUnits → (daysLater n x.date).1 ≤ 9999 →
      (∀ r, deadlineDate r ref u .half = (do implyDate r (← ref.date.addDays n))) →
      Yields (execute rt deadlineParser g (deadlineText w h u) ref) (deadlineText w h u)
        (fun r => DateIs r.startDate (daysLater n x.date) ∧ TimeIs r.startDate 0 0 0 ∧ r.hasEnd = false) := by
    intro u n hu hy he
    obtain ⟨D, h1, h2⟩ := addDays_later (n := n) hc (days n hy)
    refine key u hu D _ h2 fun r => ?_
    rw [he, hrd, h1, Out.bind_ok]
  have keyM : ∀ (u : Text) (n : Nat), u ∈ dateUnits → n ≤ 32767 → (monthsLater n x.date).1 ≤ 9999 →
      (∀ r, deadlineDate r ref u .half = (do implyDate r (← ref.date.addMonths n))) →
      Yields (execute rt deadlineParser g (deadlineText w h u) ref) (deadlineText w h u)
        (fun r => DateIs r.startDate (monthsLater n x.date) ∧ TimeIs r.startDate 0 0 0 ∧ r.hasEnd = false) := by
    intro u n hu hn hy he
    obtain ⟨D, h1, h2⟩ := addMonths_later hx.date hn hy
    refine key u hu D _ h2 fun r => ?_
    rw [he, h1, Out.bind_ok]
  intro u hu hy
  have e1 : ∀ u ∈ [txt!"week", txt!"weeks"], ∀ r, deadlineDate r ref u .half = (do implyDate r (← ref.date.addDays (3 : Nat))) := by
    intro u hu r
    simp only [List.mem_cons, List.not_mem_nil, or_false] at hu
    rcases hu with rfl | rfl <;> rfl
  have e2 : ∀ u ∈ [txt!"month", txt!"months"], ∀ r, deadlineDate r ref u .half = (do implyDate r (← ref.date.addDays (15 : Nat))) := by
    intro u hu r
    simp only [List.mem_cons, List.not_mem_nil, or_false] at hu
    rcases hu with rfl | rfl <;> rfl
  have e3 : ∀ u ∈ [txt!"year", txt!"years"], ∀ r, deadlineDate r ref u .half = (do implyDate r (← ref.date.addMonths (6 : Nat))) := by
    intro u hu r
    simp only [List.mem_cons, List.not_mem_nil, or_false] at hu
    rcases hu with rfl | rfl <;> rfl
  revert hy
  generalize 3 = a at *
  generalize 15 = b at *
  have h6 : 6 ≤ 32767 := by decide
  generalize 6 = c at *
  intro hy
  simp only [List.mem_cons, List.not_mem_nil, or_false] at hu
  rcases hu with rfl | rfl | rfl | rfl | rfl | rfl
  · exact keyD _ a (by simp [dateUnits]) hy (e1 _ (by simp))
  · exact keyD _ a (by simp [dateUnits]) hy (e1 _ (by simp))
  · exact keyD _ b (by simp [dateUnits]) hy (e2 _ (by simp))
  · exact keyD _ b (by simp [dateUnits]) hy (e2 _ (by simp))
  · exact keyM _ c (by simp [dateUnits]) h6 hy (e3 _ (by simp))
  · exact keyM _ c (by simp [dateUnits]) h6 hy (e3 _ (by simp))

/-- **C26 (hours, minutes, seconds).** Half an hour is 30 minutes, half a minute 30 seconds, half a second one second;
as in C24 the date stays the reference date. -/
theorem c26_half_hour_minute_second (rt : Rt) (hrt : rt.Benign) (g : Globals) (ref : PTime) (x : DateTime) (hx : RefReads ref x)
    (w h : Text) (hw : w ∈ deadlineWords) (hh : h ∈ halfWords) (hg : WordMap.lookup g h = WordMap.lookup integerWords h) :
    ∀ u ∈ [(txt!"hour", 1800), (txt!"hours", 1800), (txt!"minute", 30), (txt!"minutes", 30), (txt!"second", 1), (txt!"seconds", 1)],
    (x.secondsLater u.2).year ≤ 9999 →
    Yields (execute rt deadlineParser g (deadlineText w h u.1) ref) (deadlineText w h u.1)
      (fun r => DateIs r.startDate x.date ∧
        TimeIs r.startDate (x.secondsLater u.2).hour (x.secondsLater u.2).minute (x.secondsLater u.2).second ∧ r.hasEnd = false) := by
  intro u hu hy
  have hp := hx.secondsLater u.2 hy
  have hu1 : u.1 ∈ timeUnits := by
    simp only [List.mem_cons, List.not_mem_nil, or_false] at hu
    rcases hu with rfl | rfl | rfl | rfl | rfl | rfl <;> decide
  refine deadline_time_yields hrt hx (half_found hw hh (List.mem_append_right _ hu1)) (List.mem_append_left _ hu1)
    (half_number hh hg) hp ?_
  have e1 : ref.addMinutes 30 = ref.addSeconds ((1800 : Nat) : Int) := rfl
  simp only [List.mem_cons, List.not_mem_nil, or_false] at hu
  unfold deadlineTime
  rcases hu with rfl | rfl | rfl | rfl | rfl | rfl <;> rfl

theorem half_day_aux (rt : Rt) (hrt : rt.Benign) (g : Globals) (ref : PTime) (x : DateTime) (hx : RefReads ref x)
    (w h : Text) (hw : w ∈ deadlineWords) (hh : h ∈ halfWords) (hg : WordMap.lookup g h = WordMap.lookup integerWords h)
    (k : Nat) (ea : ref.addHours 12 = ref.addSeconds (k : Int)) (hy : (x.secondsLater k).year ≤ 9999) :
    ∀ u ∈ [txt!"day", txt!"days"],
    Yields (execute rt deadlineParser g (deadlineText w h u) ref) (deadlineText w h u)
      (fun r => DateIs r.startDate (x.secondsLater k).date ∧
        TimeIs r.startDate (x.secondsLater k).hour (x.secondsLater k).minute 0 ∧ r.hasEnd = false) := by
  intro u hu
  have hp := hx.secondsLater k hy
  generalize x.secondsLater k = t at hp hy ⊢
  have hu1 : u ∈ dateUnits := by
    simp only [List.mem_cons, List.not_mem_nil, or_false] at hu
    rcases hu with rfl | rfl <;> decide
  obtain ⟨hl, mt, hf, h0, h3, h4⟩ := half_found hw hh (List.mem_append_left _ hu1)
  have hs : searches false Pat.dwmy u = .ok true ∧ contains txt!"day" u = true := by
    simp only [List.mem_cons, List.not_mem_nil, or_false] at hu
    rcases hu with rfl | rfl <;> decide +kernel
  obtain ⟨hc, -⟩ := refReads_us hp
  refine yields_of hrt deadline_pattern deadline_min hl hf (pureExtract_ok
    (r := ((PResult.mk' ref 0 (deadlineText w h u)).onStart fun c => ((c.imply .year t.year).imply .month t.month).imply .mday t.day).onStart
      fun c => (c.imply .hour t.hour).imply .min t.minute) ?_) ?_ ?_ ?_ ?_
  · unfold deadlineExtract
    simp only [h0, h3, h4]
    rw [half_number hh hg, Out.bind_ok]
    simp only []
    rw [hs.1, Out.bind_ok, if_pos rfl]
    unfold deadlineDate
    rw [if_pos hs.2, if_neg (by decide)]
    simp only [ea]
    rw [implyDate_ok hp.date, Out.bind_ok, hp.hours, hp.minutes]
    rfl
  · refine hasPossibleDates_of_year ?_
    have := hc.1
    simp [get_imply]; omega
  · simp
  · simp
  · refine ⟨?_, ?_, ?_⟩
    · simp [DateIs, get_imply, DateTime.date]
    · simp [TimeIs, get_imply]
    · simp

/-- **C26 (days).** Half a day is 12 hours, to the minute. -/
theorem c26_half_day (rt : Rt) (hrt : rt.Benign) (g : Globals) (ref : PTime) (x : DateTime) (hx : RefReads ref x)
    (w h : Text) (hw : w ∈ deadlineWords) (hh : h ∈ halfWords) (hg : WordMap.lookup g h = WordMap.lookup integerWords h)
    (hy : (x.secondsLater 43200).year ≤ 9999) :
    ∀ u ∈ [txt!"day", txt!"days"],
    Yields (execute rt deadlineParser g (deadlineText w h u) ref) (deadlineText w h u)
      (fun r => DateIs r.startDate (x.secondsLater 43200).date ∧
        TimeIs r.startDate (x.secondsLater 43200).hour (x.secondsLater 43200).minute 0 ∧ r.hasEnd = false) :=
  half_day_aux rt hrt g ref x hx w h hw hh hg 43200 (by unfold PTime.addHours PTime.addSeconds; congr 1) hy

end Chrono.Props
