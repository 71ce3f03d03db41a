import Verif.Lemmas.Calendar
import Verif.Spec.Format
import Verif.Model.Result
/-!
# C08-C10, C12, C13: dates and how they are printed
-/
namespace Chrono.Props
open Chrono Chrono.Spec Chrono.Boost

/-! ## C13 -/

theorem daysLater_succ (n : Nat) (x : Nat × Nat × Nat) : daysLater (n + 1) x = nextDay (daysLater n x) := by
  induction n generalizing x with
  | zero => rfl
  | succ n ih => exact ih (nextDay x)

theorem daysLater_civil (n : Nat) {y m d : Nat} (hy : 1 ≤ y) (h : Civil y m d) :
    Civil (daysLater n (y, m, d)).1 (daysLater n (y, m, d)).2.1 (daysLater n (y, m, d)).2.2 ∧
    y ≤ (daysLater n (y, m, d)).1 ∧
    dayNumber (daysLater n (y, m, d)).1 (daysLater n (y, m, d)).2.1 (daysLater n (y, m, d)).2.2
      = dayNumber y m d + n := by
  induction n with
  | zero => exact ⟨h, Nat.le_refl _, (Nat.add_zero _).symm⟩
  | succ n ih =>
    obtain ⟨h1, h2, h3⟩ := ih
    rw [daysLater_succ]
    generalize daysLater n (y, m, d) = z at h1 h2 h3 ⊢
    obtain ⟨y', m', d'⟩ := z
    refine ⟨nextDay_civil h1, ?_, ?_⟩
    · rw [nextDay_eq]
      simp only at h2
      split
      · exact h2
      · split
        · exact h2
        · show y ≤ y' + 1
          omega
    · rw [dayNumber_nextDay (by simp only at h2; omega) h1, h3]; omega

/-- **C13 (day arithmetic).** A date object built from a civil date reads back as that date, and adding `n`
days gives the date that the calendar (leap rule, month lengths) reaches after `n` steps of "next day". -/
theorem c13_add_days_is_calendar (y m d n : Nat) (h : CivilInRange y m d)
    (hn : CivilInRange (daysLater n (y, m, d)).1 (daysLater n (y, m, d)).2.1 (daysLater n (y, m, d)).2.2) :
    ∃ D D', mkDate y m d = .ok D ∧ D.ymd = .ok ⟨y, m, d⟩ ∧ D.addDays n = .ok D' ∧
      D'.ymd = .ok ⟨(daysLater n (y, m, d)).1, (daysLater n (y, m, d)).2.1, (daysLater n (y, m, d)).2.2⟩ ∧
      D'.addDays (-n) = .ok D := by
  have hy : 1 ≤ y := Nat.le_trans (by decide) h.1
  obtain ⟨-, -, hdn⟩ := daysLater_civil n hy h.2.2
  have hr := Date.ymd_of_civil hn
  have hu := dayNumber_upper hn.2.1 hn.2.2
  have hl := dayNumber_lower h.1 h.2.2
  rw [hdn] at hr hu
  refine ⟨_, ⟨((dayNumber y m d + n : Nat) : Int)⟩, mkDate_civil h, Date.ymd_of_civil h, ?_, hr, ?_⟩
  · unfold Date.addDays
    generalize dayNumber y m d = k at *
    unfold maxDN at hu
    unfold minDN at hl
    rw [if_pos (by simp only; omega)]
    simp
  · unfold Date.addDays
    generalize dayNumber y m d = k at *
    unfold maxDN at hu
    unfold minDN at hl
    rw [if_pos (by simp only; omega)]
    simp

example : daysLater 3 (2020, 2, 27) = (2020, 3, 1) ∧ daysLater 3 (1900, 2, 27) = (1900, 3, 2) := by decide

/-- **C13 (all dates).** Conversely every date object inside Boost's range is the date of exactly one civil
date, and distinct civil dates give distinct date objects. -/
theorem c13_dates_are_civil_dates (D : Date) (h : D.inRange) :
    ∃ y m d, CivilInRange y m d ∧ mkDate y m d = .ok D ∧ D.ymd = .ok ⟨y, m, d⟩ ∧
      ∀ y' m' d', CivilInRange y' m' d' → mkDate y' m' d' = .ok D → (y', m', d') = (y, m, d) := by
  obtain ⟨y, m, d, hc, hdn, hymd⟩ := Date.civil h
  refine ⟨y, m, d, hc, ?_, hymd, ?_⟩
  · rw [mkDate_civil hc]
    cases D; simp only at hdn; rw [hdn]
  · intro y' m' d' hc' hmk
    rw [mkDate_civil hc'] at hmk
    simp only [Out.ok.injEq] at hmk
    have h1 := Date.ymd_of_civil hc'
    rw [hmk, hymd] at h1
    simp only [Out.ok.injEq, Ymd.mk.injEq] at h1
    simp [h1]

/-- **C13 (weekdays).** `day_of_week()` advances by one (mod 7) with every day, and 1970-01-01 is a
Thursday (4). -/
theorem c13_day_of_week (y m d n : Nat) (h : CivilInRange y m d)
    (hn : CivilInRange (daysLater n (y, m, d)).1 (daysLater n (y, m, d)).2.1 (daysLater n (y, m, d)).2.2) :
    ∃ D D' w, mkDate y m d = .ok D ∧ D.addDays n = .ok D' ∧ D.dayOfWeek = .ok w ∧ w < 7 ∧
      D'.dayOfWeek = .ok ((w + n) % 7) := by
  obtain ⟨D, D', h1, h2, h3, h4, -⟩ := c13_add_days_is_calendar y m d n h hn
  have hy : 1 ≤ y := Nat.le_trans (by decide) h.1
  obtain ⟨-, -, hdn⟩ := daysLater_civil n hy h.2.2
  refine ⟨D, D', dayOfWeekYmd y m d, h1, h3, ?_, ?_, ?_⟩
  · simp [Date.dayOfWeek, h2]
  · unfold dayOfWeekYmd; exact Nat.mod_lt _ (by decide)
  · simp only [Date.dayOfWeek, h4, Out.bind_ok, Out.pure_eq, Out.ok.injEq]
    rw [dayOfWeek_eq (Nat.le_trans (by decide) hn.1) hn.2.2, hdn, dayOfWeek_eq hy h.2.2]
    generalize dayNumber y m d = k
    omega

theorem c13_epoch_thursday : ∃ D, mkDate 1970 1 1 = .ok D ∧ D.dayOfWeek = .ok 4 :=
  ⟨_, mkDate_civil (y := 1970) (m := 1) (d := 1) (by decide),
    by rw [Date.dayOfWeek, Date.ymd_of_civil (by decide)]; rfl⟩

/-! ## C08, C09 -/

/-- The start (or end) getters of a components object read `t`. -/
def Reads (c : Comps) (t : DateTime) : Prop :=
  c.get .year = t.year ∧ c.get .month = t.month ∧ c.get .mday = t.day ∧
  c.get .hour = t.hour ∧ c.get .min = t.minute ∧ c.get .sec = t.second

/-- The instant of a civil date-time, in seconds. -/
def instant (t : DateTime) : Int :=
  (dayNumber t.year t.month t.day : Int) * 86400 + (t.hour * 3600 + t.minute * 60 + t.second : Nat)

theorem toU16_small {x : Nat} (h : x < 65536) : toU16 (x : Int) = x := by unfold toU16; omega

theorem date_of_reads {c : Comps} {t : DateTime} (hr : Reads c t) (hv : t.Valid) :
    ∃ T : PTime, c.date = .ok T ∧ T.us = instant t * 1000000 := by
  obtain ⟨h1, h2, h3, h4, h5, h6⟩ := hr
  obtain ⟨hc, -, -, -⟩ := hv
  have hb := monthLength_bounds t.year t.month hc.2.2.1 hc.2.2.2.1
  obtain ⟨c1, c2, c3, c4, c5, c6⟩ := id hc
  have hmk := mkDate_civil hc
  unfold Comps.date ptimeFromTm instant
  rw [h1, h2, h3, h4, h5, h6, toU16_small (by omega), toU16_small (by omega), toU16_small (by omega)]
  generalize dayNumber t.year t.month t.day = k at hmk ⊢
  rw [hmk]
  refine ⟨_, rfl, ?_⟩
  push_cast
  ring

theorem pad_two (n : Nat) : pad 2 n = [dig (n / 10), dig n] := by simp [pad, dig]
theorem pad_four (n : Nat) : pad 4 n = [dig (n / 1000), dig (n / 100), dig (n / 10), dig n] := by
  simp only [pad, dig, List.nil_append, List.cons_append]
  have e1 : n / 10 / 10 = n / 100 := by omega
  have e2 : n / 10 / 10 / 10 = n / 1000 := by omega
  rw [e2, e1]

theorem monthShort_eq {m : Nat} (h1 : 1 ≤ m) (h2 : m ≤ 12) : monthShort m = monthAbbrev m := by
  interval_cases m <;> rfl

/-- The accessors of a time point whose instant is known. -/
theorem ptime_fields {t : DateTime} (h4 : t.hour < 24) (h5 : t.minute < 60) (h6 : t.second < 60)
    (T : PTime) (us : Int) (h0 : 0 ≤ us) (h1 : us < 1000000) (hT : T.us = instant t * 1000000 + us) :
    T.date = ⟨dayNumber t.year t.month t.day⟩ ∧ T.hours = t.hour ∧ T.minutes = t.minute ∧
    T.seconds = t.second := by
  unfold instant at hT
  unfold PTime.date PTime.hours PTime.minutes PTime.seconds
  generalize dayNumber t.year t.month t.day = k at hT ⊢
  generalize T.us = x at hT ⊢
  push_cast at hT
  refine ⟨?_, by omega, by omega, by omega⟩
  have : x / 86400000000 = k := by omega
  rw [this]

theorem toSimpleString_instant {t : DateTime} (hv : t.Valid) (T : PTime) (us : Int) (h0 : 0 ≤ us)
    (h1 : us < 1000000) (hT : T.us = instant t * 1000000 + us) : toSimpleString T = .ok t.format := by
  obtain ⟨hc, h4, h5, h6⟩ := hv
  have hymd := Date.ymd_of_civil hc
  obtain ⟨hd, hh, hm, hs⟩ := ptime_fields h4 h5 h6 T us h0 h1 hT
  unfold toSimpleString
  rw [hd, hymd, hh, hm, hs]
  simp only [Out.bind_ok, Out.pure_eq, pad_two, pad_four, monthShort_eq hc.2.2.1 hc.2.2.2.1,
    Int.toNat_natCast]
  simp [DateTime.format]

/-- **C08.** `toDate()` of a result without end and without an extracted time zone prints exactly the start
components. -/
theorem c08_toDate_prints_start (r : PResult) (t : DateTime) (hv : t.Valid) (hr : Reads r.startDate t)
    (hend : r.hasEnd = false) (htz : r.getTag .extractTZ = false) : r.toDate = .ok t.format := by
  obtain ⟨T, hT, hus⟩ := date_of_reads hr hv
  have := toSimpleString_instant hv T 0 (by decide) (by decide) (by omega)
  unfold PResult.toDate
  rw [hT]
  simp [htz, hend, this]

theorem dig_inj {a b : Nat} (h : dig a = dig b) : a % 10 = b % 10 := by unfold dig at h; omega

/-- **C08 (injectivity).** Distinct date-times print differently. -/
theorem c08_format_injective (t u : DateTime) (ht : t.Valid) (hu : u.Valid) (h : t.format = u.format) : t = u := by
  obtain ⟨hc, h4, h5, h6⟩ := ht
  obtain ⟨hc', h4', h5', h6'⟩ := hu
  obtain ⟨c1, c2, c3, c4, c5, c6⟩ := hc
  obtain ⟨c1', c2', c3', c4', c5', c6'⟩ := hc'
  have hb := monthLength_bounds t.year t.month c3 c4
  have hb' := monthLength_bounds u.year u.month c3' c4'
  have hlen : ∀ m, 1 ≤ m → m ≤ 12 → (monthAbbrev m).length = 3 := by
    intro m h1 h2; interval_cases m <;> rfl
  have hinj : ∀ m m', 1 ≤ m → m ≤ 12 → 1 ≤ m' → m' ≤ 12 → monthAbbrev m = monthAbbrev m' → m = m' := by
    intro m m' h1 h2 h3 h4 he
    interval_cases m <;> interval_cases m' <;> first | rfl | (exact absurd he (by decide))
  simp only [DateTime.format, List.append_assoc, List.cons_append, List.nil_append, List.cons.injEq] at h
  obtain ⟨y1, y2, y3, y4, -, h⟩ := h
  have hm := List.append_inj h (by rw [hlen _ c3 c4, hlen _ c3' c4'])
  have hm1 := hinj _ _ c3 c4 c3' c4' hm.1
  have h2 := hm.2
  simp only [List.cons.injEq] at h2
  obtain ⟨-, d1, d2, -, a1, a2, -, b1, b2, -, e1, e2, -⟩ := h2
  replace y1 := dig_inj y1; replace y2 := dig_inj y2; replace y3 := dig_inj y3; replace y4 := dig_inj y4
  replace d1 := dig_inj d1; replace d2 := dig_inj d2
  replace a1 := dig_inj a1; replace a2 := dig_inj a2; replace b1 := dig_inj b1; replace b2 := dig_inj b2
  replace e1 := dig_inj e1; replace e2 := dig_inj e2
  have r1 : t.year = u.year := by omega
  have r3 : t.day = u.day := by omega
  have r4 : t.hour = u.hour := by omega
  have r5 : t.minute = u.minute := by omega
  have r6 : t.second = u.second := by omega
  cases t; cases u; simp_all

/-- The hypotheses of C08 are met by an ordinary result. -/
example : ∃ (r : PResult) (t : DateTime), t.Valid ∧ Reads r.startDate t ∧ r.hasEnd = false ∧
    r.getTag .extractTZ = false ∧ t.format = txt!"2019-Mar-15 00:00:00" :=
  ⟨PResult.default.onStart (fun c => ((c.set .year 2019).set .month 3).set .mday 15),
    ⟨2019, 3, 15, 0, 0, 0⟩, by decide, by simp [Reads]; decide, rfl, rfl, by decide⟩

/-- **C09.** For components in range (year, month, day of 0..65535; a time of day of less than 24 hours),
`toDate()` of a result without an end returns normally iff (year, month, day) is a calendar date of
1400..9999, and otherwise throws an exception of the `std::out_of_range` family. -/
theorem c09_toDate_throws_iff_not_a_date (r : PResult) (y m d h mi s : Nat)
    (hy : y < 65536) (hm : m < 65536) (hd : d < 65536) (hh : h < 24) (hmi : mi < 60) (hs : s < 60)
    (hr : Reads r.startDate ⟨y, m, d, h, mi, s⟩)
    (hend : r.hasEnd = false) (htz : r.getTag .extractTZ = false) :
    (CivilInRange y m d → r.toDate.isOk = true) ∧
    (¬ CivilInRange y m d → ∃ e, r.toDate = .exn e ∧ e.isOutOfRange = true) := by
  constructor
  · intro hc
    rw [c08_toDate_prints_start r ⟨y, m, d, h, mi, s⟩ ⟨hc, hh, hmi, hs⟩ hr hend htz]; rfl
  · intro hc
    obtain ⟨h1, h2, h3, h4, h5, h6⟩ := hr
    obtain ⟨e, he, he'⟩ := mkDate_exn (y := y) (m := m) (d := d) (by
      rintro ⟨-, -, -, h⟩; simp only [Int.toNat_natCast] at h; exact hc h)
    refine ⟨e, ?_, he'⟩
    unfold PResult.toDate Comps.date ptimeFromTm
    rw [h1, h2, h3, toU16_small hy, toU16_small hm, toU16_small hd, he]
    rfl

example : CivilInRange 2020 2 29 ∧ ¬ CivilInRange 2019 2 29 ∧ ¬ CivilInRange 1399 1 1 := by decide

/-! ## C10 -/

/-- **C10 (partial).** With the time-zone tag the printed start is the start shifted by the offset; the end
is printed unshifted (the wanted property shifts both, see the refutation). `t'` is the shifted start. -/
theorem c10_tz_shifts_start_only_partial (r : PResult) (t t' u : DateTime) (off : Int)
    (ht : t.Valid) (hu : u.Valid) (ht' : t'.Valid)
    (hrs : Reads r.startDate t) (hre : Reads r.endDate u) (hoff : r.startDate.get .tzoffset = off)
    (hshift : instant t' = instant t + 60 * off)
    (htz : r.getTag .extractTZ = true) :
    (r.hasEnd = true → r.toDate = .ok (t'.format ++ txt!" - " ++ u.format)) ∧
    (r.hasEnd = false → r.toDate = .ok t'.format) := by
  obtain ⟨T, hT, hus⟩ := date_of_reads hrs ht
  obtain ⟨U, hU, hus'⟩ := date_of_reads hre hu
  have he := toSimpleString_instant hu U 0 (by decide) (by decide) (by omega)
  have hadd : (T.addMinutes off).us = instant t' * 1000000 + 0 := by
    unfold PTime.addMinutes PTime.addSeconds
    rw [hshift, hus]; ring
  have hs := toSimpleString_instant ht' _ 0 (by decide) (by decide) hadd
  unfold PResult.toDate
  rw [hT, hU]
  constructor <;> intro h <;> simp [h, htz, hoff, hs, he]

/-- **C10 (refutation).** There is a result with both ends where the printed end is not shifted although the
offset is -300 minutes. -/
theorem c10_both_ends_shifted_refuted :
    ∃ r : PResult, r.getTag .extractTZ = true ∧ r.hasEnd = true ∧ r.startDate.get .tzoffset = -300 ∧
      r.endDate.get .tzoffset = -300 ∧
      r.startDate.get .hour = 12 ∧ r.endDate.get .hour = 14 ∧
      r.toDate = .ok txt!"2019-Mar-15 07:00:00 - 2019-Mar-15 14:00:00" := by
  let c : Comps := (((Comps.empty.set .year 2019).set .month 3).set .mday 15).set .tzoffset (-300)
  let r : PResult := (PResult.mk ⟨0⟩ 0 [] (fun _ => none) (c.set .hour 12) (c.set .hour 14) true).setTag
    .extractTZ
  refine ⟨r, rfl, rfl, by decide, by decide, by decide, by decide, ?_⟩
  refine (c10_tz_shifts_start_only_partial r ⟨2019, 3, 15, 12, 0, 0⟩ ⟨2019, 3, 15, 7, 0, 0⟩
    ⟨2019, 3, 15, 14, 0, 0⟩ (-300) (by decide) (by decide) (by decide) ?_ ?_ (by decide)
    (by decide +kernel) rfl).1 rfl |>.trans ?_
  · simp [Reads]; decide
  · simp [Reads]; decide
  · decide

/-! ## C12 -/

theorem isPossibleDate_ok (c : Comps) (t : DateTime) (hr : Reads c t) (D : Date)
    (hD : mkDate (toU16 ((t.year : Int) + 1900)) (toU16 t.month) (toU16 t.day) = .ok D) :
    ∃ T : PTime, T.us = D.dn * 86400000000 + (t.hour * 3600 + t.minute * 60 + t.second) * 1000000 ∧
      c.isPossibleDate = (do
        let e ← T.date.ymd
        if (e.year : Int) - 1900 ≠ t.year then return false
        else if (e.month : Int) - 1 ≠ t.month - 1 then return false
        else if (e.day : Int) ≠ t.day then return false
        else if (dayOfWeekYmd e.year e.month e.day : Int) ≠ c.get .wday then return false
        else if T.hours ≠ t.hour then return false
        else if T.minutes ≠ t.minute then return false
        else return true) := by
  obtain ⟨h1, h2, h3, h4, h5, h6⟩ := hr
  unfold Comps.isPossibleDate ptimeFromTm
  rw [h1, h2, h3, h4, h5, h6, hD]
  exact ⟨_, rfl, rfl⟩

/-- **C12 (partial).** `isPossibleDate()` validates the date 1900 years later: exactly when it returns true,
returns false, or throws, for components that read a civil date-time of year below 65536-1900. -/
theorem c12_isPossibleDate_exact_partial (c : Comps) (t : DateTime) (w : Int) (hr : Reads c t)
    (hy : t.year < 63636) (hm : t.month < 65536) (hd : t.day < 65536)
    (hh : t.hour < 24) (hmi : t.minute < 60) (hs : t.second < 60) (hw : c.get .wday = w) :
    (CivilInRange (t.year + 1900) t.month t.day →
      c.isPossibleDate = .ok (decide (w = dayOfWeekYmd (t.year + 1900) t.month t.day))) ∧
    (¬ CivilInRange (t.year + 1900) t.month t.day → ∃ e, c.isPossibleDate = .exn e ∧ e.isOutOfRange = true) := by
  obtain ⟨h1, h2, h3, h4, h5, h6⟩ := hr
  have e1 : toU16 ((t.year : Int) + 1900) = ((t.year + 1900 : Nat) : Int) := by
    unfold toU16; push_cast; omega
  constructor
  · intro hc
    have hymd := Date.ymd_of_civil hc
    have hmk := mkDate_civil hc
    have hf := fun T hT => ptime_fields (t := ⟨t.year + 1900, t.month, t.day, t.hour, t.minute, t.second⟩)
      hh hmi hs T 0 (by decide) (by decide) hT
    rw [← e1, ← toU16_small hm, ← toU16_small hd] at hmk
    obtain ⟨T, hT, hp⟩ := isPossibleDate_ok c t ⟨h1, h2, h3, h4, h5, h6⟩ _ hmk
    obtain ⟨hdate, hhours, hmins, -⟩ := hf T (by rw [hT]; unfold instant; push_cast; ring)
    rw [hp]
    rw [hdate, hymd]
    simp only [Out.bind_ok, hhours, hmins, hw]
    rw [if_neg (by push_cast; omega), if_neg (by omega), if_neg (by omega)]
    by_cases hww : (dayOfWeekYmd (t.year + 1900) t.month t.day : Int) = w
    · simp [hww]
    · rw [if_pos hww]
      rw [decide_eq_false (fun h => hww h.symm)]; rfl
  · intro hc
    obtain ⟨e, he, he'⟩ := mkDate_exn (y := (t.year + 1900 : Nat)) (m := t.month) (d := t.day) (by
      rintro ⟨-, -, -, h⟩; simp only [Int.toNat_natCast] at h; exact hc h)
    refine ⟨e, ?_, he'⟩
    unfold Comps.isPossibleDate ptimeFromTm
    rw [h1, h2, h3, e1, toU16_small hm, toU16_small hd, he]
    rfl

theorem weekday_shift_1900 (y m d : Nat) (hy : 1 ≤ y) (h1 : 1 ≤ m) (h2 : m ≤ 12) :
    dayOfWeekYmd (y + 1900) m d ≠ dayOfWeekYmd y m d := by
  unfold dayOfWeekYmd
  simp only
  have ha : (14 - m) / 12 ≤ 1 := by omega
  generalize (14 - m) / 12 = a at *
  have e0 : y + 1900 - a = (y - a) + 1900 := by omega
  rw [e0]
  generalize y - a = z
  have e1 : (z + 1900) / 4 = z / 4 + 475 := by omega
  have e2 : (z + 1900) / 100 = z / 100 + 19 := by omega
  have e3 : (z + 1900) / 400 = z / 400 + 4 ∨ (z + 1900) / 400 = z / 400 + 5 := by omega
  rw [e1, e2]
  have e4 : z / 100 ≤ z := Nat.div_le_self _ _
  rcases e3 with e3 | e3 <;> rw [e3] <;> omega

/-- **C12 (refutation, for every input).** For every valid date-time in 1400..9999 whose wday component is its
actual weekday, `isPossibleDate()` does *not* return true (it returns false or throws). -/
theorem c12_isPossibleDate_never_accepts (c : Comps) (t : DateTime) (hv : t.Valid) (hr : Reads c t)
    (D : Date) (hD : mkDate t.year t.month t.day = .ok D) (w : Nat) (hw : D.dayOfWeek = .ok w)
    (hwd : c.get .wday = w) : c.isPossibleDate ≠ .ok true := by
  obtain ⟨hc, h4, h5, h6⟩ := hv
  have hb := monthLength_bounds t.year t.month hc.2.2.1 hc.2.2.2.1
  obtain ⟨c1, c2, c3, c4, c5, c6⟩ := id hc
  have hex := c12_isPossibleDate_exact_partial c t w hr (by omega) (by omega) (by omega) h4 h5 h6 hwd
  rw [mkDate_civil hc] at hD
  simp only [Out.ok.injEq] at hD
  subst hD
  simp only [Date.dayOfWeek, Date.ymd_of_civil hc, Out.bind_ok, Out.pure_eq, Out.ok.injEq] at hw
  by_cases hcc : CivilInRange (t.year + 1900) t.month t.day
  · rw [hex.1 hcc]
    have := weekday_shift_1900 t.year t.month t.day (by omega) c3 c4
    rw [hw] at this
    simp only [ne_eq, Out.ok.injEq, decide_eq_true_eq]
    omega
  · obtain ⟨e, he, -⟩ := hex.2 hcc
    rw [he]; simp

/-- Instance: Friday 15 March 2019 is rejected. -/
example : ∃ c : Comps, Reads c ⟨2019, 3, 15, 0, 0, 0⟩ ∧ c.get .wday = 5 ∧
    dayOfWeekYmd 2019 3 15 = 5 ∧ dayOfWeekYmd 3919 3 15 = 6 :=
  ⟨(((Comps.empty.set .year 2019).set .month 3).set .mday 15).set .wday 5, by simp [Reads]; decide,
    by decide, by decide, by decide⟩

end Chrono.Props
