import Verif.Lemmas.Months
import Verif.Props.P03_Calendar
import Verif.Spec.Nearest
import Verif.Model.Parsers.Month
/-!
# The nearest year
-/
namespace Chrono.Props
open Chrono Chrono.Boost Chrono.Spec

theorem apart_dn {a b : Nat × Nat × Nat} {n : Nat} (ha : Civil a.1 a.2.1 a.2.2) (hb : Civil b.1 b.2.1 b.2.2)
    (ha1 : 1 ≤ a.1) (hb1 : 1 ≤ b.1) (h : Apart a b n) :
    dayNumber a.1 a.2.1 a.2.2 + n = dayNumber b.1 b.2.1 b.2.2 ∨ dayNumber b.1 b.2.1 b.2.2 + n = dayNumber a.1 a.2.1 a.2.2 := by
  rcases h with h | h
  · obtain ⟨-, -, c⟩ := daysLater_civil n ha1 ha
    left
    rw [← h, ← c]
  · obtain ⟨-, -, c⟩ := daysLater_civil n hb1 hb
    right
    rw [← h, ← c]

theorem dayNumber_next_year {y m d : Nat} (h : 1 ≤ m) (h' : m ≤ 12) (hd : 1 ≤ d) : dayNumber y m d < dayNumber (y + 1) m d := by
  have k0 := dayNumber_eq y m d h h' hd
  have k1 := dayNumber_eq (y + 1) m d h h' hd
  interval_cases m <;> simp at k0 k1 <;> omega

/-- 28 February is day 59 of its year. -/
theorem dayNumber_feb28 {y m d : Nat} (hc : Civil y m d) : dayNumber y 2 28 ≤ dayNumber y m d + 58 := by
  obtain ⟨h1, h2, h3, h4⟩ := hc
  have k0 := dayNumber_eq y m d h1 h2 h3
  have k1 := dayNumber_eq y 2 28 (by omega) (by omega) (by omega)
  interval_cases m <;> simp at k0 k1 <;> omega

theorem dayNumber_feb_gap {y : Nat} (h1 : 1400 ≤ y) : dayNumber y 2 28 + 365 ≤ dayNumber (y + 1) 2 28 := by
  have k0 := dayNumber_eq y 2 28 (by omega) (by omega) (by omega)
  have k1 := dayNumber_eq (y + 1) 2 28 (by omega) (by omega) (by omega)
  simp at k0 k1
  omega

theorem dayNumber_feb29 {y : Nat} : dayNumber y 2 29 = dayNumber y 2 28 + 1 := by
  have k0 := dayNumber_eq y 2 28 (by omega) (by omega) (by omega)
  have k1 := dayNumber_eq y 2 29 (by omega) (by omega) (by omega)
  simp at k0 k1
  omega

/-- Every year has this month and day. -/
def EveryYear (m d : Nat) : Prop := m = 2 → d ≤ 28

theorem civil_year {y y' m d : Nat} (he : EveryYear m d) (hc : Civil y m d) : Civil y' m d := by
  obtain ⟨h1, h2, h3, h4⟩ := hc
  refine ⟨h1, h2, h3, ?_⟩
  by_cases hm : m = 2
  · have := he hm
    subst hm
    show d ≤ if Leap y' then 29 else 28
    split <;> omega
  · have : monthLength y' m = monthLength y m := by
      interval_cases m <;> first | rfl | (exact absurd rfl hm)
    omega

theorem addYear {D : Date} {y m d : Nat} (h : D.ymd = .ok ⟨y, m, d⟩) {s : Int} (hs : s = -12 ∨ s = 12) {D' : Date}
    (ho : D.addMonths s = .ok D') : ∃ y' d' : Nat, D'.ymd = .ok ⟨y', m, d'⟩ ∧ (y' : Int) = y + s / 12 ∧
      (d' = if d = monthLength y m then monthLength y' m else min d (monthLength y' m)) := by
  obtain ⟨⟨c1, c2, c3, c4, c5, c6⟩, -⟩ := Date.of_ymd h
  have hk : ∃ k : Nat, (k : Int) = 12 * y + (m - 1) + s ∧ (k / 12 : Nat) = y + s / 12 ∧ k % 12 + 1 = m := by
    refine ⟨(12 * (y : Int) + (m - 1) + s).toNat, ?_, ?_, ?_⟩ <;> rcases hs with rfl | rfl <;> omega
  obtain ⟨k, hk, hk1, hk2⟩ := hk
  have hr : 1400 ≤ k / 12 ∧ k / 12 ≤ 9999 := by
    unfold Date.addMonths at ho
    rw [h] at ho
    simp only [Out.bind_ok] at ho
    rw [if_neg (by omega)] at ho
    have e : (y : Int) * 12 + ((m : Int) - 1) + s = (k : Int) := by omega
    rw [e] at ho
    by_cases hh : (k : Int) / 12 < 1400 ∨ 9999 < (k : Int) / 12
    · rw [if_pos hh] at ho; cases ho
    · omega
  obtain ⟨D'', h1, h2⟩ := addMonths_count h (by omega) (by omega) hk hr.1 hr.2
  rw [ho] at h1
  cases h1
  rw [hk2] at h2
  exact ⟨_, _, h2, hk1, rfl⟩

theorem month_unclipped {y y' m d : Nat} (hc : Civil y m d) (he : EveryYear m d) (hf : m = 2 → d = 28 → Leap y ∨ ¬ Leap y') :
    (if d = monthLength y m then monthLength y' m else min d (monthLength y' m)) = d := by
  have hc' := civil_year (y' := y') he hc
  obtain ⟨h1, h2, h3, h4⟩ := hc
  obtain ⟨-, -, -, h5⟩ := hc'
  by_cases hm : m = 2
  · subst hm
    have := he rfl
    have e1 : monthLength y 2 = if Leap y then 29 else 28 := rfl
    have e2 : monthLength y' 2 = if Leap y' then 29 else 28 := rfl
    rw [e1, e2]
    by_cases hd : d = 28
    · subst hd
      rcases hf rfl rfl with h | h
      · rw [if_pos h, if_neg (by omega)]; split <;> rfl
      · rw [if_neg h]; split <;> rfl
    · rw [if_neg (by split <;> omega)]
      split <;> omega
  · have : monthLength y' m = monthLength y m := by
      interval_cases m <;> first | rfl | (exact absurd rfl hm)
    rw [this]
    split <;> omega

/-- What `nearestYear` returns is the nearest year, if every year has the date, and if it is not 28 February before a
leap year. -/
theorem nearestYear_sound {ref : PTime} {x : DateTime} (hx : RefReads ref x) {m d : Nat} {y : Int}
    (h : nearestYear ref m d = .ok y) :
    Civil x.year m d ∧ 1401 ≤ x.year ∧ x.year ≤ 9998 ∧ ∃ y' : Nat, y = y' ∧
      (y' + 1 = x.year ∨ y' = x.year ∨ y' = x.year + 1) ∧
      (EveryYear m d → ¬ (m = 2 ∧ d = 28 ∧ Leap (x.year + 1)) → NearestYear x.date m d y') := by
  obtain ⟨hc, -, -, -, us, -, -, -, hrd⟩ := refReads_us hx
  obtain ⟨hyr, -⟩ := Date.year_of_ymd hx.date
  unfold nearestYear at h
  rw [hyr] at h
  simp only [Out.bind_ok] at h
  obtain ⟨D, hD, h⟩ := Out.bind_eq_ok.1 h
  obtain ⟨hcD, -, -, -, hDe⟩ := mkDate_eq_ok hD
  simp only [Int.toNat_natCast] at hcD hDe
  have hDy : D.ymd = .ok ⟨x.year, m, d⟩ := by rw [hDe]; exact Date.ymd_of_civil hcD
  obtain ⟨P, hP, h⟩ := Out.bind_eq_ok.1 h
  obtain ⟨N, hN, h⟩ := Out.bind_eq_ok.1 h
  obtain ⟨py, pd, hPy, py', hpd⟩ := addYear hDy (.inl rfl) hP
  obtain ⟨ny, nd, hNy, ny', hnd⟩ := addYear hDy (.inr rfl) hN
  obtain ⟨hcP, hPe⟩ := Date.of_ymd hPy
  obtain ⟨hcN, hNe⟩ := Date.of_ymd hNy
  have e1 : py + 1 = x.year := by omega
  have e2 : ny = x.year + 1 := by omega
  subst e2
  have hr1 : 1401 ≤ x.year := by have := hcP.1; omega
  have hr2 : x.year ≤ 9998 := by have := hcN.2.1; omega
  refine ⟨hcD.2.2, hr1, hr2, ?_⟩
  have hyD := (Date.year_of_ymd hDy).1
  have hyP := (Date.year_of_ymd hPy).1
  have hyN := (Date.year_of_ymd hNy).1
  obtain ⟨m1, m2, m3, m4⟩ := hcD.2.2
  -- the day numbers
  have key : EveryYear m d → ¬ (m = 2 ∧ d = 28 ∧ Leap (x.year + 1)) →
      ∃ p c n r : Nat, dayNumber py m d = p ∧ dayNumber x.year m d = c ∧ dayNumber (x.year + 1) m d = n ∧
        dayNumber x.year x.month x.day = r ∧ p < c ∧ c < n ∧ N.dn = n ∧ D.dn = c ∧ ref.date.dn = r ∧
        (P.dn = p ∨ P.dn = p + 1 ∧ c ≤ r + 58 ∧ p + 365 ≤ c) := by
    intro he hne
    refine ⟨_, _, _, _, rfl, rfl, rfl, rfl, ?_, dayNumber_next_year m1 m2 m3, ?_, by rw [hDe], by rw [hrd], ?_⟩
    · rw [← e1]; exact dayNumber_next_year m1 m2 m3
    · rw [hNe, hnd, month_unclipped hcD.2.2 he (fun a b => .inr fun l => hne ⟨a, b, l⟩)]
    · by_cases hf : m = 2 ∧ d = 28 ∧ ¬ Leap x.year ∧ Leap py
      · obtain ⟨rfl, rfl, f1, f2⟩ := hf
        right
        have h28 : monthLength x.year 2 = 28 := if_neg f1
        have h29 : monthLength py 2 = 29 := if_pos f2
        rw [h28, if_pos rfl, h29] at hpd
        subst hpd
        refine ⟨?_, dayNumber_feb28 hc.2.2, ?_⟩
        · rw [hPe, dayNumber_feb29]; push_cast; rfl
        · rw [← e1]; exact dayNumber_feb_gap (by omega)
      · left
        rw [hPe, hpd, month_unclipped hcD.2.2 he (fun a b => by
          by_cases l : Leap x.year
          · exact .inl l
          · right
            intro l'
            exact hf ⟨a, b, l, l'⟩)]
  have fin : ∀ y' : Nat, (y' + 1 = x.year ∨ y' = x.year ∨ y' = x.year + 1) →
      (EveryYear m d → ¬ (m = 2 ∧ d = 28 ∧ Leap (x.year + 1)) → ∀ p c n r : Nat, dayNumber py m d = p → dayNumber x.year m d = c →
        dayNumber (x.year + 1) m d = n → dayNumber x.year x.month x.day = r → p < c → c < n → N.dn = n → D.dn = c →
        ref.date.dn = r → (P.dn = p ∨ P.dn = p + 1 ∧ c ≤ r + 58 ∧ p + 365 ≤ c) →
        ((dayNumber y' m d : Int) - r).natAbs ≤ ((p : Int) - r).natAbs ∧ ((dayNumber y' m d : Int) - r).natAbs ≤ ((c : Int) - r).natAbs ∧
          ((dayNumber y' m d : Int) - r).natAbs ≤ ((n : Int) - r).natAbs) →
      (EveryYear m d → ¬ (m = 2 ∧ d = 28 ∧ Leap (x.year + 1)) → NearestYear x.date m d y') := by
    intro y' hy' hk he hne
    obtain ⟨p, c, n, r, hp, hcc, hn, hrr, a1, a2, a3, a4, a5, a6⟩ := key he hne
    obtain ⟨b1, b2, b3⟩ := hk he hne p c n r hp hcc hn hrr a1 a2 a3 a4 a5 a6
    refine ⟨hy', fun y'' hy'' k k' hk1 hk2 => ?_⟩
    have hcy : ∀ z, Civil z m d := fun z => civil_year he hcD.2.2
    have q1 := apart_dn (a := (y', m, d)) (b := x.date) (hcy y') hc.2.2 (by show 1 ≤ y'; omega) (by show 1 ≤ x.year; omega) hk1
    have q2 := apart_dn (a := (y'', m, d)) (b := x.date) (hcy y'') hc.2.2 (by show 1 ≤ y''; have : y'' + 1 = x.year ∨ y'' = x.year ∨ y'' = x.year + 1 := hy''; omega) (by show 1 ≤ x.year; omega) hk2
    simp only [DateTime.date, hrr] at q1 q2
    have : dayNumber y'' m d = p ∨ dayNumber y'' m d = c ∨ dayNumber y'' m d = n := by
      rcases hy'' with hz | hz | hz
      · left; rw [← hp, show y'' = py by have : y'' + 1 = x.year := hz; omega]
      · right; left; rw [← hcc]; exact congrArg (fun z => dayNumber z m d) hz
      · right; right; rw [← hn]; exact congrArg (fun z => dayNumber z m d) hz
    generalize dayNumber y'' m d = B at *
    generalize dayNumber y' m d = A at *
    omega
  by_cases c1 : (N.dn - ref.date.dn).natAbs < (D.dn - ref.date.dn).natAbs
  · rw [if_pos c1, hyN] at h
    cases h
    refine ⟨x.year + 1, rfl, .inr (.inr rfl), fin _ (.inr (.inr rfl)) ?_⟩
    intro _ _ p c n r h1 h2 h3 h4 h5 h6 h7 h8 h9 h10
    rw [h3]
    omega
  · rw [if_neg c1] at h
    by_cases c2 : (P.dn - ref.date.dn).natAbs < (D.dn - ref.date.dn).natAbs
    · rw [if_pos c2, hyP] at h
      cases h
      refine ⟨py, rfl, .inl e1, fin _ (.inl e1) ?_⟩
      intro _ _ p c n r h1 h2 h3 h4 h5 h6 h7 h8 h9 h10
      rw [h1]
      omega
    · rw [if_neg c2, hyD] at h
      cases h
      refine ⟨x.year, rfl, .inr (.inl rfl), fin _ (.inr (.inl rfl)) ?_⟩
      intro _ _ p c n r h1 h2 h3 h4 h5 h6 h7 h8 h9 h10
      rw [h2]
      omega

/-- It answers whenever the date exists in the year of the reference and the neighbouring years are supported. -/
theorem nearestYear_ok {ref : PTime} {x : DateTime} (hx : RefReads ref x) {m d : Nat} (hc : Civil x.year m d)
    (h1 : 1401 ≤ x.year) (h2 : x.year ≤ 9998) : ∃ y, nearestYear ref m d = .ok y := by
  obtain ⟨hyr, -⟩ := Date.year_of_ymd hx.date
  have hcD : CivilInRange x.year m d := ⟨by omega, by omega, hc⟩
  obtain ⟨D, hD, hDy⟩ : ∃ D, mkDate x.year m d = .ok D ∧ D.ymd = .ok ⟨x.year, m, d⟩ :=
    ⟨_, mkDate_civil hcD, Date.ymd_of_civil hcD⟩
  obtain ⟨m1, m2, m3, m4⟩ := hc
  obtain ⟨k, hk⟩ : ∃ k : Nat, k = 12 * (x.year - 1) + (m - 1) := ⟨_, rfl⟩
  obtain ⟨l, hl⟩ : ∃ k : Nat, k = 12 * (x.year + 1) + (m - 1) := ⟨_, rfl⟩
  obtain ⟨P, hP, hPy⟩ := addMonths_count hDy (n := -12) (by omega) (by omega) (k := k) (by omega) (by omega) (by omega)
  obtain ⟨N, hN, hNy⟩ := addMonths_count hDy (n := 12) (by omega) (by omega) (k := l) (by omega) (by omega) (by omega)
  have hyD := (Date.year_of_ymd hDy).1
  have hyP := (Date.year_of_ymd hPy).1
  have hyN := (Date.year_of_ymd hNy).1
  unfold nearestYear
  rw [hyr]
  simp only [Out.bind_ok, hD, hP, hN]
  by_cases c1 : (N.dn - ref.date.dn).natAbs < (D.dn - ref.date.dn).natAbs
  · rw [if_pos c1]; exact ⟨_, hyN⟩
  · rw [if_neg c1]
    by_cases c2 : (P.dn - ref.date.dn).natAbs < (D.dn - ref.date.dn).natAbs
    · rw [if_pos c2]; exact ⟨_, hyP⟩
    · rw [if_neg c2]; exact ⟨_, hyD⟩

end Chrono.Props
