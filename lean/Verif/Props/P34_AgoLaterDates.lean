import Verif.Props.P33_AgoLater
/-!
# C65: the arithmetic of the time-ago and time-later parsers
-/
namespace Chrono.Props
open Chrono Chrono.Spec Chrono.Boost

theorem set_date_ok {r : PResult} {fr : Fragments} {D : Date} {p : PTime} {z : Nat × Nat × Nat}
    (ht : (fpos fr.hour || fpos fr.minute || fpos fr.second) = false)
    (hd : (fpos fr.day || fpos fr.month || fpos fr.year || fpos fr.week) = true) (hD : D.ymd = .ok ⟨z.1, z.2.1, z.2.2⟩) :
    setFromFragments r fr D p =
      .ok (r.onStart (fun c => ((c.set .mday z.2.2).set .month z.2.1).set .year z.1)) := by
  unfold setFromFragments
  simp only [ht, hd, Bool.false_eq_true, if_true, if_false]
  unfold Date.day Date.month Date.year
  rw [hD]
  rfl

theorem set_zero_ok {r : PResult} {fr : Fragments} {D : Date} {p : PTime} {z : Nat × Nat × Nat}
    (ht : (fpos fr.hour || fpos fr.minute || fpos fr.second) = false)
    (hd : (fpos fr.day || fpos fr.month || fpos fr.year || fpos fr.week) = false) (hD : p.date.ymd = .ok ⟨z.1, z.2.1, z.2.2⟩) :
    setFromFragments r fr D p =
      .ok (r.onStart (fun c => ((c.imply .mday z.2.2).imply .month z.2.1).imply .year z.1)) := by
  unfold setFromFragments
  simp only [ht, hd, Bool.false_eq_true, if_false]
  unfold Date.day Date.month Date.year
  rw [hD]
  rfl

theorem set_time_ok {r : PResult} {fr : Fragments} {D : Date} {p : PTime} {z : DateTime}
    (ht : (fpos fr.hour || fpos fr.minute || fpos fr.second) = true)
    (hd : (fpos fr.day || fpos fr.month || fpos fr.year || fpos fr.week) = false) (hp : RefReads p z) :
    setFromFragments r fr D p =
      .ok ((r.onStart (fun c => ((c.set .hour z.hour).set .min z.minute).set .sec z.second)).onStart
        (fun c => ((c.imply .mday z.day).imply .month z.month).imply .year z.year)) := by
  unfold setFromFragments
  simp only [ht, hd, Bool.false_eq_true, if_true, if_false]
  unfold Date.day Date.month Date.year
  rw [hp.date, hp.hours, hp.minutes, hp.seconds]
  rfl

/-- The fragments of a date unit. -/
theorem fragOf_date {u : Text} (hu : u ∈ dateUnits) (v : FNum) :
    (contains txt!"day" u ∧ fragOf u v = { day := some v }) ∨ (contains txt!"week" u ∧ fragOf u v = { week := some v }) ∨
    (contains txt!"month" u ∧ fragOf u v = { month := some v }) ∨ (contains txt!"year" u ∧ fragOf u v = { year := some v }) := by
  simp only [dateUnits, List.mem_cons, List.not_mem_nil, or_false] at hu
  rcases hu with rfl | rfl | rfl | rfl | rfl | rfl | rfl | rfl
  · exact .inl ⟨by decide, rfl⟩
  · exact .inl ⟨by decide, rfl⟩
  · exact .inr (.inl ⟨by decide, rfl⟩)
  · exact .inr (.inl ⟨by decide, rfl⟩)
  · exact .inr (.inr (.inl ⟨by decide, rfl⟩))
  · exact .inr (.inr (.inl ⟨by decide, rfl⟩))
  · exact .inr (.inr (.inr ⟨by decide, rfl⟩))
  · exact .inr (.inr (.inr ⟨by decide, rfl⟩))

theorem slash_date {rt : Rt} (hrt : rt.Benign) {g : Globals} {ref : PTime} {x : DateTime} (hx : RefReads ref x)
    {P : Parser} {num u w m : Text} {n : Nat} (hP : AgoOrLater P w m) (hn : IsNumeral num n) (hsm : n < 16777216) (hu : u ∈ dateUnits)
    {D : Date} {z : Nat × Nat × Nat} (hD : D.ymd = .ok ⟨z.1, z.2.1, z.2.2⟩) (h0 : n = 0 → z = x.date)
    (hday : contains txt!"day" u → ref.date.addDays (relSign m n) = .ok D)
    (hweek : contains txt!"week" u → ref.date.addDays (relSign m (7 * n)) = .ok D)
    (hmonth : contains txt!"month" u → ref.date.addMonths (relSign m n) = .ok D)
    (hyear : contains txt!"year" u → ref.date.addMonths (relSign m (12 * n)) = .ok D) :
    Yields (execute rt P g (slashText num u w) ref) (slashText num u w)
      (fun r => DateIs r.startDate z ∧ TimeIs r.startDate 0 0 0 ∧ r.hasEnd = false) := by
  have hus : u ∈ slashUnits := List.mem_append_left _ hu
  have hi : (FNum.int n).toInt = .ok (n : Int) := by simp only [FNum.toInt]; rw [if_pos (by omega)]
  have hlg : (FNum.int n).toLong = .ok (n : Int) := by simp only [FNum.toLong]; rw [if_pos (by omega)]
  have e : ∀ k : Int, relSign txt!"last" k = -k := fun k => if_neg (by decide)
  have e' : ∀ k : Int, relSign txt!"next" k = k := fun k => if_pos rfl
  obtain ⟨⟨c1, -⟩, -⟩ := Date.of_ymd hD
  have key := fun r hr => slash_yields (r := r) hrt (g := g) hP hn hsm hus (D := D) (p := ref) (ref := ref)
    (by
      rintro rfl r
      simp only [e] at hday hweek hmonth hyear
      rcases fragOf_date hu (.int n) with ⟨h, hf⟩ | ⟨h, hf⟩ | ⟨h, hf⟩ | ⟨h, hf⟩ <;>
        simp only [hf, onFrag, hi, hlg, Out.bind_ok, hday, hweek, hmonth, hyear, h, catchOOR, Out.pure_eq])
    (by
      rintro rfl r
      simp only [e'] at hday hweek hmonth hyear
      rcases fragOf_date hu (.int n) with ⟨h, hf⟩ | ⟨h, hf⟩ | ⟨h, hf⟩ | ⟨h, hf⟩ <;>
        simp only [hf, onFrag, hi, hlg, Out.bind_ok, hday, hweek, hmonth, hyear, h, Out.pure_eq])
    hr
  have ht : (fpos (fragOf u (.int n)).hour || fpos (fragOf u (.int n)).minute || fpos (fragOf u (.int n)).second) = false := by
    rcases fragOf_date hu (.int n) with ⟨h, hf⟩ | ⟨h, hf⟩ | ⟨h, hf⟩ | ⟨h, hf⟩ <;> rw [hf] <;> rfl
  have hd : (fpos (fragOf u (.int n)).day || fpos (fragOf u (.int n)).month || fpos (fragOf u (.int n)).year ||
      fpos (fragOf u (.int n)).week) = decide (0 < n) := by
    rcases fragOf_date hu (.int n) with ⟨h, hf⟩ | ⟨h, hf⟩ | ⟨h, hf⟩ | ⟨h, hf⟩ <;> rw [hf] <;> simp [fpos]
  by_cases hn0 : 0 < n
  · refine yields_mono ?_ (key _ (set_date_ok ht (by rw [hd]; simpa using hn0) hD) (by rfl) (by rfl) (by rfl) ?_)
    · rintro r ⟨h1, h2⟩
      rw [h1]
      exact ⟨by simp [DateIs, get_set], by simp [TimeIs, get_set], h2⟩
    · simp [get_set]; omega
  · have hz := h0 (by omega)
    refine yields_mono ?_ (key _ (set_zero_ok (z := z) ht (by rw [hd]; simpa using hn0) (by rw [hz]; exact hx.date)) (by rfl) (by rfl) (by rfl) ?_)
    · rintro r ⟨h1, h2⟩
      rw [h1]
      exact ⟨by simp [DateIs, get_imply], by simp [TimeIs, get_imply], h2⟩
    · simp [get_imply]; omega

/-- **C65 (days, weeks).** `n` below 2^24 in digits (however many) or as a word: on `n days\ago` the time-ago parser yields one result, covering
the text, dated `n` days before the reference date (weeks: `7 n`); the time-later parser on `n days\later` after it. -/
theorem c65_days_and_weeks (rt : Rt) (hrt : rt.Benign) (g : Globals) (ref : PTime) (x : DateTime) (hx : RefReads ref x)
    (P : Parser) (num w m : Text) (n : Nat) (u : Text × Nat) (hP : AgoOrLater P w m) (hn : IsNumeral num n) (hu : u ∈ dayUnits)
    (z : Nat × Nat × Nat) (hz : CivilInRange z.1 z.2.1 z.2.2) (hmv : DaysMoved m (u.2 * n) x.date z) :
    Yields (execute rt P g (slashText num u.1 w) ref) (slashText num u.1 w)
      (fun r => DateIs r.startDate z ∧ TimeIs r.startDate 0 0 0 ∧ r.hasEnd = false) := by
  obtain ⟨D, h1, h2, h3⟩ := daysMoved_add hx hz hmv
  have hk : n ≤ u.2 * n := by
    have : 1 ≤ u.2 := by
      simp only [dayUnits, List.mem_cons, List.not_mem_nil, or_false] at hu
      rcases hu with rfl | rfl | rfl | rfl <;> decide
    exact Nat.le_mul_of_pos_left _ this
  have h0 : n = 0 → z = x.date := by
    rintro rfl
    rw [Nat.mul_zero] at hmv
    unfold DaysMoved at hmv
    split at hmv
    · exact hmv.symm
    · exact hmv
  simp only [dayUnits, List.mem_cons, List.not_mem_nil, or_false] at hu
  rcases hu with rfl | rfl | rfl | rfl
  all_goals
    refine slash_date hrt hx hP hn (by omega) (by decide) h2 h0 ?_ ?_ ?_ ?_
    all_goals first
      | exact fun h => absurd h (by decide)
      | (intro _; simpa using h1)

/-- **C65 (months, years).** `k * n` months at most 32767, the day clipped to the length of the month. -/
theorem c65_months_and_years (rt : Rt) (hrt : rt.Benign) (g : Globals) (ref : PTime) (x : DateTime) (hx : RefReads ref x)
    (P : Parser) (num w m : Text) (n : Nat) (u : Text × Nat) (hP : AgoOrLater P w m) (hn : IsNumeral num n) (hu : u ∈ monthUnits)
    (h16 : u.2 * n ≤ 32767) (hy1 : 1400 ≤ (monthsMoved m (u.2 * n) x.date).1) (hy2 : (monthsMoved m (u.2 * n) x.date).1 ≤ 9999) :
    Yields (execute rt P g (slashText num u.1 w) ref) (slashText num u.1 w)
      (fun r => DateIs r.startDate (monthsMoved m (u.2 * n) x.date) ∧ TimeIs r.startDate 0 0 0 ∧ r.hasEnd = false) := by
  obtain ⟨D, h1, h2⟩ := monthsMoved_add hx.date h16 hy1 hy2
  have hk : n ≤ u.2 * n := by
    have : 1 ≤ u.2 := by
      simp only [monthUnits, List.mem_cons, List.not_mem_nil, or_false] at hu
      rcases hu with rfl | rfl | rfl | rfl <;> decide
    exact Nat.le_mul_of_pos_left _ this
  have h0 : n = 0 → monthsMoved m (u.2 * n) x.date = x.date := by
    rintro rfl
    obtain ⟨⟨c1, c2, c3, c4, c5, c6⟩, -⟩ := Date.of_ymd hx.date
    have hdm : (12 * x.year + (x.month - 1)) / 12 = x.year ∧ (12 * x.year + (x.month - 1)) % 12 + 1 = x.month := by omega
    rw [Nat.mul_zero]
    unfold monthsMoved monthsLater monthsEarlier DateTime.date
    simp only [Nat.add_zero, Nat.sub_zero, hdm.1, hdm.2]
    have : (if x.day = monthLength x.year x.month then monthLength x.year x.month else min x.day (monthLength x.year x.month)) = x.day := by
      split
      · exact (‹_› : x.day = _).symm
      · exact Nat.min_eq_left c6
    rw [this, ite_self]
  simp only [monthUnits, List.mem_cons, List.not_mem_nil, or_false] at hu
  rcases hu with rfl | rfl | rfl | rfl
  all_goals
    refine slash_date hrt hx hP hn (by omega) (by decide) h2 h0 ?_ ?_ ?_ ?_
    all_goals first
      | exact fun h => absurd h (by decide)
      | (intro _; simpa using h1)

/-! ## Times -/

theorem fragOf_time {u : Text × Nat} (hu : u ∈ secondUnits) (v : FNum) :
    (u.2 = 3600 ∧ fragOf u.1 v = { hour := some v }) ∨ (u.2 = 60 ∧ fragOf u.1 v = { minute := some v }) ∨
    (u.2 = 1 ∧ fragOf u.1 v = { second := some v }) := by
  simp only [secondUnits, List.mem_cons, List.not_mem_nil, or_false] at hu
  rcases hu with rfl | rfl | rfl | rfl | rfl | rfl
  · exact .inl ⟨rfl, rfl⟩
  · exact .inl ⟨rfl, rfl⟩
  · exact .inr (.inl ⟨rfl, rfl⟩)
  · exact .inr (.inl ⟨rfl, rfl⟩)
  · exact .inr (.inr ⟨rfl, rfl⟩)
  · exact .inr (.inr ⟨rfl, rfl⟩)

/-- **C65 (hours, minutes, seconds).** `n` from 1 to below 2^24: the result is the instant `n` units before (after) the reference,
with its date, also when midnight is crossed. -/
theorem c65_times (rt : Rt) (hrt : rt.Benign) (g : Globals) (ref : PTime) (x : DateTime) (hx : RefReads ref x)
    (P : Parser) (num w m : Text) (n : Nat) (u : Text × Nat) (hP : AgoOrLater P w m) (hn : IsNumeral num n) (hu : u ∈ secondUnits)
    (h1 : 1 ≤ n) (hsm : n < 16777216) (z : DateTime) (hz : z.Valid) (hmv : SecondsMoved m (u.2 * n) x z) :
    Yields (execute rt P g (slashText num u.1 w) ref) (slashText num u.1 w)
      (fun r => DateIs r.startDate z.date ∧ TimeIs r.startDate z.hour z.minute z.second ∧ r.hasEnd = false) := by
  have hp := secondsMoved_add hx hz hmv
  have hus : u.1 ∈ slashUnits := by
    simp only [secondUnits, List.mem_cons, List.not_mem_nil, or_false] at hu
    rcases hu with rfl | rfl | rfl | rfl | rfl | rfl <;> decide
  have hi : (FNum.int n).toInt = .ok (n : Int) := by simp only [FNum.toInt]; rw [if_pos (by omega)]
  have e1 : ref.addHours (relSign m n) = ref.addSeconds (relSign m ((3600 * n : Nat) : Int)) := by
    rw [relSign_mul]; unfold PTime.addHours PTime.addSeconds; congr 1
  have e2 : ref.addMinutes (relSign m n) = ref.addSeconds (relSign m ((60 * n : Nat) : Int)) := by
    rw [relSign_mul]; unfold PTime.addMinutes PTime.addSeconds; congr 1
  have e3 : ref.addSeconds (relSign m n) = ref.addSeconds (relSign m ((1 * n : Nat) : Int)) := by rw [Nat.one_mul]
  have e : ∀ k : Int, relSign txt!"last" k = -k := fun k => if_neg (by decide)
  have e' : ∀ k : Int, relSign txt!"next" k = k := fun k => if_pos rfl
  obtain ⟨⟨c1, -⟩, -⟩ := Date.of_ymd hp.date
  have key := fun r hr => slash_yields (r := r) hrt (g := g) hP hn hsm hus (D := ref.date) (p := ref.addSeconds (relSign m (u.2 * n : Nat))) (ref := ref)
    (by
      rintro rfl r
      rw [e] at e1 e2 e3
      rcases fragOf_time hu (.int n) with ⟨h, hf⟩ | ⟨h, hf⟩ | ⟨h, hf⟩ <;>
        simp only [hf, onFrag, hi, Out.bind_ok, Out.pure_eq, e1, e2, e3, h])
    (by
      rintro rfl r
      rw [e'] at e1 e2 e3
      rcases fragOf_time hu (.int n) with ⟨h, hf⟩ | ⟨h, hf⟩ | ⟨h, hf⟩ <;>
        simp only [hf, onFrag, hi, Out.bind_ok, Out.pure_eq, e1, e2, e3, h])
    hr
  have ht : (fpos (fragOf u.1 (.int n)).hour || fpos (fragOf u.1 (.int n)).minute || fpos (fragOf u.1 (.int n)).second) = true := by
    rcases fragOf_time hu (.int n) with ⟨h, hf⟩ | ⟨h, hf⟩ | ⟨h, hf⟩ <;> rw [hf] <;> simp [fpos] <;> omega
  have hd : (fpos (fragOf u.1 (.int n)).day || fpos (fragOf u.1 (.int n)).month || fpos (fragOf u.1 (.int n)).year ||
      fpos (fragOf u.1 (.int n)).week) = false := by
    rcases fragOf_time hu (.int n) with ⟨h, hf⟩ | ⟨h, hf⟩ | ⟨h, hf⟩ <;> rw [hf] <;> rfl
  refine yields_mono ?_ (key _ (set_time_ok ht hd hp) (by rfl) (by rfl) (by rfl) ?_)
  · rintro r ⟨h1, h2⟩
    rw [h1]
    exact ⟨by simp [DateIs, get_set, get_imply, DateTime.date], by simp [TimeIs, get_set, get_imply], h2⟩
  · simp [get_set, get_imply]; omega

example : AgoOrLater timeAgoParser txt!"ago" txt!"last" ∧ AgoOrLater timeLaterParser txt!"from now" txt!"next" :=
  ⟨.ago (by decide), .later (by decide)⟩
example : slashText txt!"007" txt!"weeks" txt!"ago" = txt!"007 weeks\\ago" ∧ IsNumeral txt!"007" 7 ∧ IsNumeral txt!"a few" 3 :=
  ⟨by decide, .inl ⟨⟨by simp, by decide⟩, by decide⟩, .inr (by decide)⟩
example : DaysMoved txt!"last" (7 * 7) (2019, 3, 15) (2019, 1, 25) ∧ CivilInRange 2019 1 25 := by unfold DaysMoved; decide
example : monthsMoved txt!"next" (12 * 1) (2020, 2, 29) = (2021, 2, 28) := by decide

end Chrono.Props
