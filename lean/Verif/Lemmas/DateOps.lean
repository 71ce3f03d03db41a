import Verif.Props.P03_Calendar
import Verif.Spec.Reference
/-!
# Dates of reference times, shifting dates, n-th weekdays
-/
namespace Chrono
open Boost Spec Props

theorem daysBeforeYear_eq (y : Nat) : daysBeforeYear (y + 1) = 365 * y + y / 4 - y / 100 + y / 400 := by
  induction y with
  | zero => rfl
  | succ y ih =>
    unfold daysBeforeYear
    rw [ih, if_neg (by omega)]
    unfold yearLength Leap
    have e6 : y / 100 ≤ y := Nat.div_le_self _ _
    have e1 : (y + 1) / 4 = y / 4 + (if (y + 1) % 4 = 0 then 1 else 0) := by split <;> omega
    have e2 : (y + 1) / 100 = y / 100 + (if (y + 1) % 100 = 0 then 1 else 0) := by split <;> omega
    have e3 : (y + 1) / 400 = y / 400 + (if (y + 1) % 400 = 0 then 1 else 0) := by split <;> omega
    rw [e1, e2, e3]
    have e4 : (y + 1) % 400 = 0 → (y + 1) % 100 = 0 := by omega
    have e5 : (y + 1) % 100 = 0 → (y + 1) % 4 = 0 := by omega
    by_cases h1 : (y + 1) % 4 = 0 <;> by_cases h2 : (y + 1) % 100 = 0 <;> by_cases h3 : (y + 1) % 400 = 0 <;>
      simp_all <;> omega

theorem ordinal_next {y m d : Nat} (hy : 1 ≤ y) (h : Civil y m d) :
    ordinal (nextDay (y, m, d)).1 (nextDay (y, m, d)).2.1 (nextDay (y, m, d)).2.2 = ordinal y m d + 1 := by
  obtain ⟨h1, h2, h3, h4⟩ := h
  rw [nextDay_eq]
  unfold ordinal
  split
  · simp only; omega
  · split
    · simp only [daysBeforeMonth]; omega
    · have : m = 12 := by omega
      subst this
      simp only [daysBeforeYear, if_neg (show y ≠ 0 by omega)]
      have : yearLength y = daysBeforeMonth y 12 + 31 := by
        simp only [daysBeforeMonth, monthLength, yearLength]
        split <;> rfl
      simp only [monthLength] at h4
      rename_i h5 _
      simp only [monthLength] at h5
      have e : daysBeforeMonth (y + 1) 1 = 0 := by simp [daysBeforeMonth, monthLength]
      omega

/-- Boost's day number counts the days of the calendar. -/
theorem dayNumber_ordinal_1400 : ∀ n, minDN + n ≤ maxDN → ∀ y m d, CivilInRange y m d → dayNumber y m d = minDN + n →
    dayNumber y m d = ordinal y m d + 1721425 := by
  intro n
  induction n with
  | zero =>
    intro _ y m d hc he
    have h1 := fromDayNumber_dayNumber (Nat.le_trans (by decide) hc.1) hc.2.2
    have h2 : fromDayNumber (minDN + 0) = ⟨1400, 1, 1⟩ := by decide +kernel
    rw [he, h2] at h1
    simp only [Ymd.mk.injEq] at h1
    obtain ⟨rfl, rfl, rfl⟩ := h1
    decide +kernel
  | succ n ih =>
    intro hn y m d hc he
    obtain ⟨y', m', d', hc', he'⟩ := dayNumber_surj n (by omega)
    have h1 := ih (by omega) y' m' d' hc' he'
    have h2 := dayNumber_nextDay (Nat.le_trans (by decide) hc'.1) hc'.2.2
    have h3 := ordinal_next (Nat.le_trans (by decide) hc'.1) hc'.2.2
    have e1 := fromDayNumber_dayNumber (Nat.le_trans (by decide) hc.1) hc.2.2
    have hy : 1 ≤ (nextDay (y', m', d')).1 := by
      have := hc'.1
      rw [nextDay_eq]; split
      · show 1 ≤ y'; omega
      · split
        · show 1 ≤ y'; omega
        · show 1 ≤ y' + 1; omega
    have e2 := fromDayNumber_dayNumber hy (nextDay_civil hc'.2.2)
    rw [h2, he', show minDN + n + 1 = minDN + (n + 1) from rfl, ← he, e1] at e2
    simp only [Ymd.mk.injEq] at e2
    obtain ⟨a, b, c⟩ := e2
    rw [← a, ← b, ← c] at h3
    omega

theorem dayNumber_ordinal {y m d : Nat} (h : CivilInRange y m d) : dayNumber y m d = ordinal y m d + 1721425 := by
  have h1 := dayNumber_lower h.1 h.2.2
  have h2 := dayNumber_upper h.2.1 h.2.2
  exact dayNumber_ordinal_1400 (dayNumber y m d - minDN) (by omega) y m d h (by omega)

theorem weekday_eq {y m d : Nat} (h : CivilInRange y m d) : weekday y m d = (dayNumber y m d + 1) % 7 := by
  have := dayNumber_ordinal h
  unfold weekday
  omega

theorem weekday_dow {y m d : Nat} (h : CivilInRange y m d) : dayOfWeekYmd y m d = weekday y m d := by
  rw [weekday_eq h, dayOfWeek_eq (Nat.le_trans (by decide) h.1) h.2.2]

/-! ## Date objects -/

theorem Date.year_of_ymd {D : Date} {y m d : Nat} (h : D.ymd = .ok ⟨y, m, d⟩) :
    D.year = .ok (y : Int) ∧ D.month = .ok (m : Int) ∧ D.day = .ok (d : Int) ∧
    D.dayOfWeek = .ok (dayOfWeekYmd y m d) := by
  unfold Date.year Date.month Date.day Date.dayOfWeek
  rw [h]; exact ⟨rfl, rfl, rfl, rfl⟩

/-- A date object whose accessors answer is in range and is the date of its accessors. -/
theorem Date.of_ymd {D : Date} {y m d : Nat} (h : D.ymd = .ok ⟨y, m, d⟩) :
    CivilInRange y m d ∧ D = ⟨dayNumber y m d⟩ := by
  have hr : D.inRange := by
    unfold Date.ymd at h
    split at h
    · assumption
    · split at h <;> simp at h
  obtain ⟨y', m', d', hc, hdn, hymd⟩ := Date.civil hr
  rw [hymd] at h
  simp only [Out.ok.injEq, Ymd.mk.injEq] at h
  obtain ⟨rfl, rfl, rfl⟩ := h
  exact ⟨hc, by cases D; simp only at hdn; rw [hdn]⟩

theorem Date.dow_of_inRange {D : Date} (h : D.inRange) : D.dayOfWeek = .ok ((D.dn.toNat + 1) % 7) := by
  obtain ⟨y, m, d, hc, hdn, hymd⟩ := Date.civil h
  rw [(Date.year_of_ymd hymd).2.2.2, weekday_dow hc, weekday_eq hc, hdn, Int.toNat_natCast]

theorem Date.addDays_ok {D : Date} {n : Int} (h1 : (minDN : Int) ≤ D.dn + n) (h2 : D.dn + n ≤ maxDN) :
    D.addDays n = .ok ⟨D.dn + n⟩ := by
  unfold Date.addDays
  unfold minDN at h1
  unfold maxDN at h2
  rw [if_pos (by omega)]

theorem Date.addDays_small {D : Date} {n : Int} (h : D.inRange) (h1 : -1000 ≤ n) (h2 : n ≤ 1000) :
    D.addDays n = .ok ⟨D.dn + n⟩ := by
  obtain ⟨a, b⟩ := h
  unfold Date.addDays
  unfold minDN at a
  unfold maxDN at b
  rw [if_pos (by omega)]

/-- Two civil dates with the same day number are equal. -/
theorem civil_unique {x x' : Nat × Nat × Nat} (h : CivilInRange x.1 x.2.1 x.2.2) (h' : CivilInRange x'.1 x'.2.1 x'.2.2)
    (he : dayNumber x.1 x.2.1 x.2.2 = dayNumber x'.1 x'.2.1 x'.2.2) : x = x' := by
  have h1 := fromDayNumber_dayNumber (Nat.le_trans (by decide) h.1) h.2.2
  have h2 := fromDayNumber_dayNumber (Nat.le_trans (by decide) h'.1) h'.2.2
  rw [he, h2] at h1
  simp only [Ymd.mk.injEq] at h1
  obtain ⟨a, b, c⟩ := x
  obtain ⟨a', b', c'⟩ := x'
  simp only at h1
  simp [h1.1, h1.2.1, h1.2.2]

/-- `n` days later, on date objects. -/
theorem addDays_later {y m d n : Nat} (h : CivilInRange y m d)
    (hn : CivilInRange (daysLater n (y, m, d)).1 (daysLater n (y, m, d)).2.1 (daysLater n (y, m, d)).2.2) :
    ∃ D, (Date.mk (dayNumber y m d)).addDays n = .ok D ∧
      D.ymd = .ok ⟨(daysLater n (y, m, d)).1, (daysLater n (y, m, d)).2.1, (daysLater n (y, m, d)).2.2⟩ := by
  obtain ⟨D, D', h1, h2, h3, h4, -⟩ := c13_add_days_is_calendar y m d n h hn
  rw [mkDate_civil h] at h1
  cases h1
  exact ⟨D', h3, h4⟩

/-- `n` days earlier. -/
theorem addDays_earlier {y m d y' m' d' n : Nat} (h : CivilInRange y m d) (h' : CivilInRange y' m' d')
    (hn : daysLater n (y', m', d') = (y, m, d)) :
    ∃ D, (Date.mk (dayNumber y m d)).addDays (-n) = .ok D ∧ D.ymd = .ok ⟨y', m', d'⟩ := by
  obtain ⟨D, D', h1, h2, h3, h4, h5⟩ := c13_add_days_is_calendar y' m' d' n h' (by rw [hn]; exact h)
  rw [hn] at h4
  obtain ⟨-, hD⟩ := Date.of_ymd h4
  rw [hD] at h5
  exact ⟨D, h5, h2⟩

/-! ## Reference times -/

theorem ptime_us_eq (t : PTime) : t.us = t.date.dn * 86400000000 + t.us % 86400000000 := by
  unfold PTime.date; simp only; omega

theorem refReads_us {ref : PTime} {t : DateTime} (h : RefReads ref t) :
    CivilInRange t.year t.month t.day ∧ t.hour < 24 ∧ t.minute < 60 ∧ t.second < 60 ∧
    ∃ us : Int, 0 ≤ us ∧ us < 1000000 ∧ ref.us = instant t * 1000000 + us ∧
      ref.date = ⟨dayNumber t.year t.month t.day⟩ := by
  obtain ⟨hc, hD⟩ := Date.of_ymd h.date
  have h1 := h.hours
  have h2 := h.minutes
  have h3 := h.seconds
  have hu := ptime_us_eq ref
  rw [hD] at hu
  simp only at hu
  unfold PTime.hours at h1
  unfold PTime.minutes at h2
  unfold PTime.seconds at h3
  have hlt := Int.emod_lt_of_pos ref.us (show (0:Int) < 86400000000 by decide)
  have hge := Int.emod_nonneg ref.us (show (86400000000:Int) ≠ 0 by decide)
  generalize ref.us % 86400000000 = x at *
  refine ⟨hc, by omega, by omega, by omega, x % 1000000, by omega, by omega, ?_, hD⟩
  unfold instant
  generalize dayNumber t.year t.month t.day = k at *
  push_cast
  omega

theorem refReads_of_us {ref : PTime} {t : DateTime} (hv : t.Valid) {us : Int} (h0 : 0 ≤ us) (h1 : us < 1000000)
    (h : ref.us = instant t * 1000000 + us) : RefReads ref t := by
  obtain ⟨hc, h4, h5, h6⟩ := hv
  obtain ⟨hd, hh, hm, hs⟩ := ptime_fields h4 h5 h6 ref us h0 h1 h
  exact ⟨by rw [hd]; exact Date.ymd_of_civil hc, hh, hm, hs⟩

/-- Every valid reference time reads some valid date-time. -/
theorem PTime.Valid.reads {ref : PTime} (h : ref.Valid) : ∃ t, t.Valid ∧ RefReads ref t := by
  unfold PTime.Valid minDN maxDN at h
  have hr : ref.date.inRange := by
    unfold Date.inRange PTime.date minDN maxDN
    simp only
    omega
  obtain ⟨y, m, d, hc, hdn, hymd⟩ := Date.civil hr
  have hlt := Int.emod_lt_of_pos ref.us (show (0:Int) < 86400000000 by decide)
  have hge := Int.emod_nonneg ref.us (show (86400000000:Int) ≠ 0 by decide)
  refine ⟨⟨y, m, d, ref.hours.toNat, ref.minutes.toNat, ref.seconds.toNat⟩, ⟨hc, ?_, ?_, ?_⟩, ⟨hymd, ?_, ?_, ?_⟩⟩
  all_goals
    unfold PTime.hours PTime.minutes PTime.seconds at *
    simp only
    omega

theorem Spec.RefReads.valid {ref : PTime} {t : DateTime} (h : RefReads ref t) : t.Valid := by
  obtain ⟨a, b, c, d, -⟩ := refReads_us h
  exact ⟨a, b, c, d⟩

/-! ## n-th weekdays -/

theorem stepForward_ok (w : Nat) : ∀ (n : Nat) (D : Date), (minDN : Int) ≤ D.dn → D.dn + n ≤ maxDN →
    (∃ j < n, ((D.dn + j).toNat + 1) % 7 = w) →
    ∃ j < n, stepForward w n D = .ok ⟨D.dn + j⟩ ∧ ((D.dn + j).toNat + 1) % 7 = w := by
  intro n
  induction n with
  | zero => intro D _ _ ⟨j, hj, _⟩; omega
  | succ n ih =>
    intro D h1 h2 ⟨j, hj, hjw⟩
    have hr : D.inRange := ⟨h1, by omega⟩
    unfold stepForward
    rw [Date.dow_of_inRange hr]
    simp only [Out.bind_ok]
    by_cases hx : (D.dn.toNat + 1) % 7 = w
    · rw [if_pos hx]
      exact ⟨0, by omega, by simp, by simpa using hx⟩
    · rw [if_neg hx, Date.addDays_small hr (by omega) (by omega)]
      simp only [Out.bind_ok]
      have hj0 : j ≠ 0 := by rintro rfl; simp at hjw; exact hx hjw
      obtain ⟨i, hi, e1, e2⟩ := ih ⟨D.dn + 1⟩ (by simp only; omega) (by simp only; omega)
        ⟨j - 1, by omega, by simp only; rw [show D.dn + 1 + ((j - 1 : Nat) : Int) = D.dn + j by omega]; exact hjw⟩
      simp only at e1 e2
      have e : D.dn + 1 + (i : Int) = D.dn + ((i + 1 : Nat) : Int) := by omega
      exact ⟨i + 1, by omega, by rw [e1, e], by rw [← e]; exact e2⟩

theorem stepBack_ok (w : Nat) : ∀ (n : Nat) (D : Date), (minDN : Int) ≤ D.dn - n → D.dn ≤ maxDN →
    (∃ j < n, ((D.dn - j).toNat + 1) % 7 = w) →
    ∃ j < n, stepBack w n D = .ok ⟨D.dn - j⟩ ∧ ((D.dn - j).toNat + 1) % 7 = w := by
  intro n
  induction n with
  | zero => intro D _ _ ⟨j, hj, _⟩; omega
  | succ n ih =>
    intro D h1 h2 ⟨j, hj, hjw⟩
    have hr : D.inRange := ⟨by omega, h2⟩
    unfold stepBack
    rw [Date.dow_of_inRange hr]
    simp only [Out.bind_ok]
    by_cases hx : (D.dn.toNat + 1) % 7 = w
    · rw [if_pos hx]
      exact ⟨0, by omega, by simp, by simpa using hx⟩
    · rw [if_neg hx, Date.addDays_small hr (by omega) (by omega)]
      simp only [Out.bind_ok]
      have hj0 : j ≠ 0 := by rintro rfl; simp at hjw; exact hx hjw
      obtain ⟨i, hi, e1, e2⟩ := ih ⟨D.dn + -1⟩ (by simp only; omega) (by simp only; omega)
        ⟨j - 1, by omega, by simp only; rw [show D.dn + -1 - ((j - 1 : Nat) : Int) = D.dn - j by omega]; exact hjw⟩
      simp only at e1 e2
      have e : D.dn + -1 - (i : Int) = D.dn - ((i + 1 : Nat) : Int) := by omega
      exact ⟨i + 1, by omega, by rw [e1, e], by rw [← e]; exact e2⟩

theorem exists_weekday (w : Nat) (hw : w < 7) (x : Int) (hx : 7 ≤ x) :
    (∃ j < 7, ((x + (j:Nat)).toNat + 1) % 7 = w) ∧ (∃ j < 7, ((x - (j:Nat)).toNat + 1) % 7 = w) := by
  constructor
  · exact ⟨(w + 6 * ((x.toNat + 1) % 7)) % 7, by omega, by omega⟩
  · exact ⟨(((x.toNat + 1) % 7) + 7 - w) % 7, by omega, by omega⟩

theorem dayNumber_add {y m d k : Nat} (h1 : 1 ≤ m) (h2 : m ≤ 12) (h3 : 1 ≤ d) :
    dayNumber y m (d + k) = dayNumber y m d + k := by
  have a := dayNumber_eq y m d h1 h2 h3
  have b := dayNumber_eq y m (d + k) h1 h2 (by omega)
  generalize dayNumber y m d = p at *
  generalize dayNumber y m (d + k) = q at *
  have e6 : (y + 4800 - if m ≤ 2 then 1 else 0) / 100 ≤ (y + 4800 - if m ≤ 2 then 1 else 0) := Nat.div_le_self _ _
  generalize (y + 4800 - if m ≤ 2 then 1 else 0) = z at *
  omega

theorem nthKday_core {n w y m K : Nat} (hn1 : 1 ≤ n) (hn2 : n ≤ 4) (hw : w < 7) (hl : minDN ≤ K)
    (hu : K + 27 ≤ maxDN) (hmk : mkDate (y : Int) m 1 = .ok ⟨K⟩)
    (hmon : ∀ k, k ≤ 27 → (Date.mk ((K + k : Nat) : Int)).month = .ok (m : Int)) :
    ∃ k, k ≤ 27 ∧ 7 * (n - 1) ≤ k ∧ k < 7 * n ∧ (K + k + 1) % 7 = w ∧
      nthKday n w m (y : Int) = .ok ⟨((K + k : Nat) : Int)⟩ := by
  unfold minDN at hl
  unfold maxDN at hu
  obtain ⟨j, hj, e1, e2⟩ := stepForward_ok w 7 ⟨K⟩ (by simp only; unfold minDN; omega) (by simp only; unfold maxDN; omega)
    (exists_weekday w hw _ (by simp only; omega)).1
  simp only at e1 e2
  refine ⟨j + 7 * (n - 1), by omega, by omega, by omega, by omega, ?_⟩
  unfold nthKday
  rw [hmk]
  simp only [Out.bind_ok]
  rw [e1]
  simp only [Out.bind_ok]
  have e : (K : Int) + j + 7 * ((n : Int) - 1) = ((K + (j + 7 * (n - 1)) : Nat) : Int) := by omega
  rw [Date.addDays_ok (by simp only; unfold minDN; omega) (by simp only; unfold maxDN; omega)]
  simp only [Out.bind_ok]
  rw [e, hmon _ (by omega)]
  simp

/-- `nth_kday_of_month`. -/
theorem nthKday_spec {n w y m : Nat} (hn1 : 1 ≤ n) (hn2 : n ≤ 4) (hw : w < 7) (hy1 : 1400 ≤ y) (hy2 : y ≤ 9999)
    (hm1 : 1 ≤ m) (hm2 : m ≤ 12) :
    ∃ d, IsNthWeekday n w y m d ∧ nthKday n w m (y : Int) = .ok ⟨dayNumber y m d⟩ := by
  have hb := monthLength_bounds y m hm1 hm2
  have hc : ∀ k, k ≤ 27 → CivilInRange y m (1 + k) := fun k hk => ⟨hy1, hy2, hm1, hm2, by omega, by omega⟩
  have hl := dayNumber_lower (hc 0 (by decide)).1 (hc 0 (by decide)).2.2
  have hu := dayNumber_upper (hc 27 (by decide)).2.1 (hc 27 (by decide)).2.2
  have hmk := mkDate_civil (hc 0 (by decide))
  have hadd : ∀ k, dayNumber y m (1 + k) = dayNumber y m 1 + k := fun k => dayNumber_add hm1 hm2 (Nat.le_refl 1)
  have hymd : ∀ k, k ≤ 27 → (Date.mk ((dayNumber y m 1 + k : Nat) : Int)).month = .ok (m : Int) := by
    intro k hk
    rw [← hadd k]
    exact (Date.year_of_ymd (Date.ymd_of_civil (hc k hk))).2.1
  have hw' : ∀ k, k ≤ 27 → weekday y m (1 + k) = (dayNumber y m 1 + k + 1) % 7 := fun k hk => by
    rw [weekday_eq (hc k hk), hadd k]
  rw [hadd 27] at hu
  simp only [Nat.add_zero, Nat.cast_one] at hl hmk
  obtain ⟨k, k1, k2, k3, k4, k5⟩ := nthKday_core hn1 hn2 hw hl hu hmk hymd
  refine ⟨1 + k, ⟨(hc k k1).2.2, by rw [hw' k k1]; exact k4, by omega, by omega⟩, ?_⟩
  rw [k5, hadd k]

theorem lastKday_core {w y m l K : Nat} (hw : w < 7) (hl : minDN + 27 ≤ K) (hu : K ≤ maxDN)
    (hlen : endOfMonthDay y m = l)
    (hmk : mkDate (y : Int) m l = .ok ⟨K⟩) :
    ∃ k, k < 7 ∧ (K - k + 1) % 7 = w ∧ lastKday w m (y : Int) = .ok ⟨((K - k : Nat) : Int)⟩ := by
  unfold minDN at hl
  unfold maxDN at hu
  obtain ⟨j, hj, e1, e2⟩ := stepBack_ok w 7 ⟨K⟩ (by simp only; unfold minDN; omega) (by simp only; unfold maxDN; omega)
    (exists_weekday w hw _ (by simp only; omega)).2
  simp only at e1 e2
  refine ⟨j, hj, by omega, ?_⟩
  unfold lastKday
  rw [Int.toNat_natCast, hlen, hmk]
  simp only [Out.bind_ok]
  rw [e1]
  have e : (K : Int) - j = ((K - j : Nat) : Int) := by omega
  rw [e]

/-- `last_kday_of_month`. -/
theorem lastKday_spec {w y m : Nat} (hw : w < 7) (hy1 : 1400 ≤ y) (hy2 : y ≤ 9999)
    (hm1 : 1 ≤ m) (hm2 : m ≤ 12) :
    ∃ d, IsLastWeekday w y m d ∧ lastKday w m (y : Int) = .ok ⟨dayNumber y m d⟩ := by
  have hb := monthLength_bounds y m hm1 hm2
  have hc : ∀ k, k ≤ 27 → CivilInRange y m (monthLength y m - k) :=
    fun k hk => ⟨hy1, hy2, hm1, hm2, by omega, by omega⟩
  have hl := dayNumber_lower (hc 27 (by decide)).1 (hc 27 (by decide)).2.2
  have hu := dayNumber_upper (hc 0 (by decide)).2.1 (hc 0 (by decide)).2.2
  have hmk := mkDate_civil (hc 0 (by decide))
  have hsub : ∀ k, k ≤ 27 → dayNumber y m (monthLength y m) = dayNumber y m (monthLength y m - k) + k := by
    intro k hk
    have := dayNumber_add (y := y) (m := m) (d := monthLength y m - k) (k := k) hm1 hm2 (by omega)
    rwa [Nat.sub_add_cancel (by omega)] at this
  have hsub' : ∀ k, k ≤ 27 → dayNumber y m (monthLength y m - k) = dayNumber y m (monthLength y m) - k := by
    intro k hk
    rw [hsub k hk, Nat.add_sub_cancel]
  have hw' : ∀ k, k ≤ 27 → weekday y m (monthLength y m - k) = (dayNumber y m (monthLength y m) - k + 1) % 7 :=
    fun k hk => by rw [weekday_eq (hc k hk), hsub' k hk]
  have h27 := hsub 27 (by decide)
  rw [Nat.sub_zero] at hu hmk
  obtain ⟨k, k1, k2, k3⟩ := lastKday_core (y := y) hw (by rw [h27]; exact Nat.add_le_add_right hl 27) hu
    (endOfMonthDay_eq y m hm1 hm2) hmk
  refine ⟨monthLength y m - k, ⟨(hc k (by omega)).2.2, by rw [hw' k (by omega)]; exact k2, by omega⟩, ?_⟩
  rw [k3, hsub' k (by omega)]

example : weekday 1970 1 1 = 4 ∧ weekday 2000 1 1 = 6 ∧ weekday 2019 3 15 = 5 := by decide +kernel

end Chrono
