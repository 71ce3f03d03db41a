import Verif.Spec.Calendar
import Verif.Boost.Date
import Verif.Lemmas.Tac
/-! # Calendar lemmas -/
namespace Chrono
open Spec Boost

theorem isLeap_iff (y : Nat) : isLeap y = true ↔ Leap y := by
  simp only [isLeap, Leap, Bool.and_eq_true, Bool.or_eq_true, Bool.not_eq_true', beq_iff_eq,
    beq_eq_false_iff_ne]

theorem endOfMonthDay_eq (y m : Nat) (h1 : 1 ≤ m) (h2 : m ≤ 12) : endOfMonthDay y m = monthLength y m := by
  have hl := isLeap_iff y
  interval_cases m <;> simp [endOfMonthDay, monthLength]
  by_cases h : Leap y <;> simp_all

theorem monthLength_bounds (y m : Nat) (h1 : 1 ≤ m) (h2 : m ≤ 12) :
    28 ≤ monthLength y m ∧ monthLength y m ≤ 31 := by
  interval_cases m <;> simp [monthLength]
  split <;> omega

/-- Day number, with the Boost formula split: `yy`, `mm` count from March, `e` is the day within the
year that begins in March. -/
theorem dayNumber_eq (y m d : Nat) (h1 : 1 ≤ m) (h2 : m ≤ 12) (hd : 1 ≤ d) :
    dayNumber y m d + 32044 =
      (d - 1) + (153 * (if m ≤ 2 then m + 9 else m - 3) + 2) / 5 +
        365 * (y + 4800 - (if m ≤ 2 then 1 else 0)) + (y + 4800 - (if m ≤ 2 then 1 else 0)) / 4
        - (y + 4800 - (if m ≤ 2 then 1 else 0)) / 100 + (y + 4800 - (if m ≤ 2 then 1 else 0)) / 400 := by
  unfold dayNumber
  by_cases hm : m ≤ 2
  · have ha : (14 - m) / 12 = 1 := by omega
    simp only [ha, hm, if_true]
    have : m + 12 * 1 - 3 = m + 9 := by omega
    rw [this]
    omega
  · have ha : (14 - m) / 12 = 0 := by omega
    simp only [ha, hm, if_false]
    have : m + 12 * 0 - 3 = m - 3 := by omega
    rw [this]
    omega

/-- Core inversion: century / year-of-century / day-of-year. -/
theorem inv_core (yy e : Nat) (he : e ≤ 365)
    (hleap : e = 365 → (yy + 1) % 4 = 0 ∧ ((yy + 1) % 100 ≠ 0 ∨ (yy + 1) % 400 = 0)) :
    let a := e + 365 * yy + yy / 4 - yy / 100 + yy / 400
    let b := (4 * a + 3) / 146097
    let c := a - (146097 * b) / 4
    let d := (4 * c + 3) / 1461
    b = yy / 100 ∧ d = yy % 100 ∧ c - (1461 * d) / 4 = e := by
  intro a b c d
  obtain ⟨q, s, r, hs, hr, hyy⟩ : ∃ q s r, s < 4 ∧ r < 100 ∧ yy = 400 * q + 100 * s + r :=
    ⟨yy / 400, yy % 400 / 100, yy % 100, by omega, by omega, by omega⟩
  have h1 : yy / 100 = 4 * q + s := by omega
  have h2 : yy / 400 = q := by omega
  have h3 : yy / 4 = 100 * q + 25 * s + r / 4 := by omega
  have ha : a = 146097 * q + 36524 * s + (365 * r + r / 4 + e) := by
    simp only [a, h1, h2, h3]; omega
  have hin : 365 * r + r / 4 + e ≤ 36524 := by omega
  have hin' : 365 * r + r / 4 + e = 36524 → s = 3 := by
    intro h
    have : e = 365 := by omega
    have := hleap this
    omega
  have hb : b = 4 * q + s := by
    simp only [b, ha]
    by_cases hx : 365 * r + r / 4 + e = 36524
    · have := hin' hx; omega
    · interval_cases s <;> omega
  have hc : c = 365 * r + r / 4 + e := by
    simp only [c, hb, ha]
    have : (146097 * (4 * q + s)) / 4 = 146097 * q + 36524 * s := by
      interval_cases s <;> omega
    omega
  have hd : d = r := by
    simp only [d, hc]
    by_cases hx : e = 365
    · have := hleap hx
      omega
    · omega
  refine ⟨by omega, by omega, ?_⟩
  rw [hc, hd]; omega

theorem fromDayNumber_dayNumber {y m d : Nat} (hy1 : 1 ≤ y) (h : Civil y m d) :
    fromDayNumber (dayNumber y m d) = ⟨y, m, d⟩ := by
  obtain ⟨h1, h2, hd, hd2⟩ := h
  have key := dayNumber_eq y m d h1 h2 hd
  generalize hyy : y + 4800 - (if m ≤ 2 then 1 else 0) = yy at key
  generalize hmm : (if m ≤ 2 then m + 9 else m - 3) = mm at key
  have hmm' : mm ≤ 11 := by split at hmm <;> omega
  generalize he : (d - 1) + (153 * mm + 2) / 5 = e at key
  have hbound : (d - 1) < (if mm = 11 then (if Leap (yy + 1) then 29 else 28) else
      (if mm = 1 ∨ mm = 3 ∨ mm = 6 ∨ mm = 8 then 30 else 31)) := by
    interval_cases m <;> simp [monthLength] at hd2 hmm hyy <;> subst hmm <;> simp <;>
      try omega
    have e1 : yy + 1 = y + 4800 := by omega
    have : Leap (yy + 1) ↔ Leap y := by rw [e1]; unfold Leap; omega
    simp only [this]
    split at hd2 <;> simp_all <;> omega
  have he365 : e ≤ 365 := by
    subst he
    interval_cases mm <;> simp at hbound <;> try omega
    split at hbound <;> omega
  have hleap : e = 365 → (yy + 1) % 4 = 0 ∧ ((yy + 1) % 100 ≠ 0 ∨ (yy + 1) % 400 = 0) := by
    intro h365
    subst he
    interval_cases mm <;> simp at hbound <;> try omega
    split at hbound
    · rename_i hl; exact hl
    · omega
  have hcore := inv_core yy e he365 hleap
  have hdn : dayNumber y m d + 32044 = e + 365 * yy + yy / 4 - yy / 100 + yy / 400 := by omega
  simp only at hcore
  unfold fromDayNumber
  rw [hdn]
  simp only
  obtain ⟨hb, hdd, hee⟩ := hcore
  rw [hdd] at hee
  rw [hb] at hdd hee
  rw [hb, hdd, hee]
  have hm5 : (5 * e + 2) / 153 = mm := by
    subst he
    interval_cases mm <;> simp at hbound <;> omega
  rw [hm5]
  have hy : 100 * (yy / 100) + yy % 100 - 4800 + mm / 10 = y := by
    clear hm5 hee hdd hb hdn hleap key
    by_cases hm : m ≤ 2 <;> simp only [hm, if_true, if_false] at hmm hyy <;> omega
  have hmo : mm + 3 - 12 * (mm / 10) = m := by
    clear hm5 hee hdd hb hdn hleap key
    by_cases hm : m ≤ 2 <;> simp only [hm, if_true, if_false] at hmm hyy <;> omega
  have hday : e - (153 * mm + 2) / 5 + 1 = d := by omega
  rw [hy, hmo, hday]

theorem nextDay_eq (y m d : Nat) : nextDay (y, m, d) =
    if d < monthLength y m then (y, m, d + 1) else if m < 12 then (y, m + 1, 1) else (y + 1, 1, 1) := rfl

theorem nextDay_civil {y m d : Nat} (h : Civil y m d) :
    Civil (nextDay (y, m, d)).1 (nextDay (y, m, d)).2.1 (nextDay (y, m, d)).2.2 := by
  obtain ⟨h1, h2, h3, h4⟩ := h
  rw [nextDay_eq]
  split
  · exact ⟨h1, h2, by simp, by simp; omega⟩
  · split
    · have := (monthLength_bounds y (m + 1) (by omega) (by omega)).1
      exact ⟨by simp, by simp; omega, by simp, by simp; omega⟩
    · exact ⟨by simp, by simp, by simp, by simp [monthLength]⟩

theorem dayNumber_nextDay {y m d : Nat} (hy1 : 1 ≤ y) (h : Civil y m d) :
    dayNumber (nextDay (y, m, d)).1 (nextDay (y, m, d)).2.1 (nextDay (y, m, d)).2.2
      = dayNumber y m d + 1 := by
  obtain ⟨h1, h2, h3, h4⟩ := h
  rw [nextDay_eq]
  have k0 := dayNumber_eq y m d h1 h2 h3
  by_cases ha : d < monthLength y m
  · simp only [ha, if_true]
    have k1 := dayNumber_eq y m (d + 1) h1 h2 (by omega)
    omega
  · have hdl : d = monthLength y m := by omega
    by_cases hb : m < 12
    · simp only [ha, hb, if_true, if_false]
      have k1 := dayNumber_eq y (m + 1) 1 (by omega) (by omega) (by omega)
      clear ha h3 h4
      subst hdl
      by_cases hm2 : m = 2
      · subst hm2
        simp [monthLength] at k0 k1 ⊢
        have e1 : (y + 4800) / 4 = (y + 4799) / 4 + (if y % 4 = 0 then 1 else 0) := by split <;> omega
        have e2 : (y + 4800) / 100 = (y + 4799) / 100 + (if y % 100 = 0 then 1 else 0) := by split <;> omega
        have e3 : (y + 4800) / 400 = (y + 4799) / 400 + (if y % 400 = 0 then 1 else 0) := by split <;> omega
        rw [e1, e2, e3] at k1
        have e4 : y % 400 = 0 → y % 100 = 0 := by omega
        have e5 : y % 100 = 0 → y % 4 = 0 := by omega
        have e6 : (y + 4799) / 100 ≤ (y + 4799) := Nat.div_le_self _ _
        generalize (y + 4799) / 4 = p at *
        generalize (y + 4799) / 100 = q at *
        generalize (y + 4799) / 400 = r at *
        unfold Leap at *
        by_cases hu : y % 400 = 0 <;> by_cases hv : y % 100 = 0 <;> by_cases hw : y % 4 = 0 <;> simp_all <;> omega
      · clear hy1
        have e6 : (y + 4800) / 100 ≤ (y + 4800) := Nat.div_le_self _ _
        have e7 : (y + 4799) / 100 ≤ (y + 4799) := Nat.div_le_self _ _
        interval_cases m <;> simp [monthLength] at k0 k1 hm2 ⊢ <;>
        generalize (y + 4800) / 4 = p at * <;> generalize (y + 4800) / 100 = q at * <;>
        generalize (y + 4800) / 400 = r at * <;> generalize (y + 4799) / 4 = p' at * <;>
        generalize (y + 4799) / 100 = q' at * <;> generalize (y + 4799) / 400 = r' at * <;> omega
    · simp only [ha, hb, if_false]
      have : m = 12 := by omega
      subst this
      have k1 := dayNumber_eq (y + 1) 1 1 (by omega) (by omega) (by omega)
      simp [monthLength] at hdl k0 k1
      omega

theorem dayOfWeek_eq {y m d : Nat} (hy1 : 1 ≤ y) (h : Civil y m d) :
    dayOfWeekYmd y m d = (dayNumber y m d + 1) % 7 := by
  obtain ⟨h1, h2, h3, h4⟩ := h
  have k0 := dayNumber_eq y m d h1 h2 h3
  unfold dayOfWeekYmd
  have aux : ∀ z e c : Nat, 1 ≤ c → (e + c + 365 * (z + 4800) + (z + 4800) / 4 - (z + 4800) / 100 + (z + 4800) / 400 =
      dayNumber y m d + 32044) →
      ∀ c', c' % 7 = (c + 2) % 7 → (e + 1 + z + z / 4 - z / 100 + z / 400 + c') % 7 = (dayNumber y m d + 1) % 7 := by
    intro z e c hc h c' hc'
    have e1 : (z + 4800) / 4 = z / 4 + 1200 := by omega
    have e2 : (z + 4800) / 100 = z / 100 + 48 := by omega
    have e3 : (z + 4800) / 400 = z / 400 + 12 := by omega
    rw [e1, e2, e3] at h
    generalize z / 4 = p at *
    have : z / 100 ≤ z := Nat.div_le_self _ _
    generalize z / 100 = q at *
    generalize z / 400 = r at *
    omega
  obtain ⟨e, rfl⟩ : ∃ e, d = e + 1 := ⟨d - 1, by omega⟩
  have ha : (14 - m) / 12 = if m ≤ 2 then 1 else 0 := by split <;> omega
  simp only [ha]
  obtain ⟨z, hz⟩ : ∃ z, y - (if m ≤ 2 then 1 else 0) = z := ⟨_, rfl⟩
  have hz' : y + 4800 - (if m ≤ 2 then 1 else 0) = z + 4800 := by
    have : (if m ≤ 2 then 1 else 0) ≤ 1 := by split <;> omega
    clear aux k0
    omega
  rw [hz'] at k0
  rw [hz]
  simp only [Nat.add_sub_cancel] at k0
  by_cases hm : m ≤ 2
  · simp only [hm, if_true] at k0 ⊢
    refine aux z e ((153 * (m + 9) + 2) / 5) (by omega) k0.symm _ ?_
    interval_cases m <;> rfl
  · simp only [hm, if_false] at k0 ⊢
    by_cases hm3 : m = 3
    · subst hm3
      simp at k0 ⊢
      clear aux
      have e1 : (z + 4800) / 4 = z / 4 + 1200 := by omega
      have e2 : (z + 4800) / 100 = z / 100 + 48 := by omega
      have e3 : (z + 4800) / 400 = z / 400 + 12 := by omega
      rw [e1, e2, e3] at k0
      have : z / 100 ≤ z := Nat.div_le_self _ _
      omega
    · refine aux z e ((153 * (m - 3) + 2) / 5) (by omega) k0.symm _ ?_
      interval_cases m <;> first | rfl | omega

theorem dayNumber_lower {y m d : Nat} (hy : 1400 ≤ y) (h : Civil y m d) : minDN ≤ dayNumber y m d := by
  obtain ⟨h1, h2, h3, h4⟩ := h
  have k0 := dayNumber_eq y m d h1 h2 h3
  unfold minDN
  interval_cases m <;> simp at k0 <;> omega

theorem dayNumber_upper {y m d : Nat} (hy : y ≤ 9999) (h : Civil y m d) : dayNumber y m d ≤ maxDN := by
  obtain ⟨h1, h2, h3, h4⟩ := h
  have k0 := dayNumber_eq y m d h1 h2 h3
  have hb := monthLength_bounds y m h1 h2
  unfold maxDN
  interval_cases m <;> simp [monthLength] at k0 h4 <;> first | omega | (split at h4 <;> omega)

/-- Every day number in range is the number of a civil date. -/
theorem dayNumber_surj : ∀ n, minDN + n ≤ maxDN →
    ∃ y m d, CivilInRange y m d ∧ dayNumber y m d = minDN + n := by
  intro n
  induction n with
  | zero => intro _; exact ⟨1400, 1, 1, by decide, by decide +kernel⟩
  | succ n ih =>
    intro hn
    obtain ⟨y, m, d, ⟨hy1, hy2, hc⟩, hdn⟩ := ih (by omega)
    refine ⟨(nextDay (y, m, d)).1, (nextDay (y, m, d)).2.1, (nextDay (y, m, d)).2.2, ⟨?_, ?_, nextDay_civil hc⟩, ?_⟩
    · rw [nextDay_eq]
      split
      · exact hy1
      · split
        · exact hy1
        · show 1400 ≤ y + 1
          omega
    · by_contra hcon
      have hk := dayNumber_nextDay (by omega) hc
      have h0 : (nextDay (y, m, d)).1 = 10000 ∧ (nextDay (y, m, d)).2.1 = 1 ∧ (nextDay (y, m, d)).2.2 = 1 := by
        rw [nextDay_eq] at hcon ⊢
        by_cases ha : d < monthLength y m
        · simp only [ha, if_true] at hcon; exact absurd hy2 hcon
        · by_cases hb : m < 12
          · simp only [ha, hb, if_true, if_false] at hcon; exact absurd hy2 hcon
          · simp only [ha, hb, if_false] at hcon ⊢
            exact ⟨by omega, trivial, trivial⟩
      rw [h0.1, h0.2.1, h0.2.2] at hk
      have : dayNumber 10000 1 1 = 5373485 := by decide +kernel
      unfold maxDN minDN at *
      omega
    · rw [dayNumber_nextDay (by omega) hc]; omega

theorem fromDayNumber_spec {n : Nat} (h1 : minDN ≤ n) (h2 : n ≤ maxDN) :
    CivilInRange (fromDayNumber n).year (fromDayNumber n).month (fromDayNumber n).day ∧
    dayNumber (fromDayNumber n).year (fromDayNumber n).month (fromDayNumber n).day = n := by
  obtain ⟨y, m, d, hc, hdn⟩ := dayNumber_surj (n - minDN) (by omega)
  have : dayNumber y m d = n := by omega
  have h := fromDayNumber_dayNumber (by have := hc.1; omega) hc.2.2
  rw [this] at h
  rw [h]
  exact ⟨hc, this⟩

/-! ## Date objects -/

theorem Date.ymd_ok {x : Date} (h : x.inRange) : x.ymd = .ok (fromDayNumber x.dn.toNat) := by
  unfold Date.ymd; rw [if_pos h]

/-- The civil date of an in-range date. -/
theorem Date.civil {x : Date} (h : x.inRange) : ∃ y m d, CivilInRange y m d ∧
    x.dn = (dayNumber y m d : Int) ∧ x.ymd = .ok ⟨y, m, d⟩ := by
  obtain ⟨h1, h2⟩ := h
  have := fromDayNumber_spec (n := x.dn.toNat) (by omega) (by omega)
  refine ⟨_, _, _, this.1, ?_, Date.ymd_ok ⟨h1, h2⟩⟩
  rw [this.2]; unfold minDN at h1; omega

theorem Date.inRange_of {n : Nat} (h1 : minDN ≤ n) (h2 : n ≤ maxDN) : (Date.mk (n:Int)).inRange := by
  unfold Date.inRange
  constructor
  · show (minDN : Int) ≤ (n : Int)
    omega
  · show (n : Int) ≤ maxDN
    omega

theorem Date.ymd_of_fromDayNumber {n : Nat} {z : Ymd} (hr : (Date.mk (n:Int)).inRange)
    (h3 : fromDayNumber n = z) : (Date.mk (n:Int)).ymd = .ok z := by
  unfold Date.ymd
  rw [if_pos hr]
  show Out.ok (fromDayNumber (Int.toNat (n : Int))) = _
  rw [Int.toNat_natCast, h3]

theorem Date.inRange_of_civil {y m d : Nat} (h : CivilInRange y m d) :
    (Date.mk (dayNumber y m d)).inRange :=
  Date.inRange_of (dayNumber_lower h.1 h.2.2) (dayNumber_upper h.2.1 h.2.2)

theorem Date.ymd_of_civil {y m d : Nat} (h : CivilInRange y m d) :
    (Date.mk (dayNumber y m d)).ymd = .ok ⟨y, m, d⟩ :=
  Date.ymd_of_fromDayNumber (Date.inRange_of_civil h)
    (fromDayNumber_dayNumber (Nat.le_trans (by decide) h.1) h.2.2)

theorem mkDate_civil {y m d : Nat} (h : CivilInRange y m d) :
    mkDate y m d = .ok ⟨dayNumber y m d⟩ := by
  obtain ⟨h1, h2, h3, h4, h5, h6⟩ := h
  have hb := monthLength_bounds y m h3 h4
  unfold mkDate
  rw [if_neg (by omega), if_neg (by omega), if_neg (by omega)]
  rw [Int.toNat_natCast, Int.toNat_natCast, endOfMonthDay_eq y m h3 h4, if_neg (by omega)]
  simp

theorem mkDate_eq_ok {y m d : Int} {x : Date} (h : mkDate y m d = .ok x) :
    CivilInRange y.toNat m.toNat d.toNat ∧ (y.toNat : Int) = y ∧ (m.toNat : Int) = m ∧ (d.toNat : Int) = d ∧
    x = ⟨dayNumber y.toNat m.toNat d.toNat⟩ := by
  unfold mkDate at h
  split at h; · simp at h
  split at h; · simp at h
  split at h; · simp at h
  split at h; · simp at h
  rename_i a b c e
  rw [endOfMonthDay_eq _ _ (by omega) (by omega)] at e
  simp only [Out.ok.injEq] at h
  exact ⟨⟨by omega, by omega, by omega, by omega, by omega, by omega⟩, by omega, by omega, by omega, h.symm⟩

/-- `mkDate` succeeds exactly on civil dates in range and otherwise throws one of Boost's range errors. -/
theorem mkDate_exn {y m d : Int} (h : ¬ (0 ≤ y ∧ 0 ≤ m ∧ 0 ≤ d ∧ CivilInRange y.toNat m.toNat d.toNat)) :
    ∃ e, mkDate y m d = .exn e ∧ e.isOutOfRange = true := by
  unfold mkDate
  split; · exact ⟨_, rfl, rfl⟩
  split; · exact ⟨_, rfl, rfl⟩
  split; · exact ⟨_, rfl, rfl⟩
  split; · exact ⟨_, rfl, rfl⟩
  rename_i a b c e
  rw [endOfMonthDay_eq _ _ (by omega) (by omega)] at e
  exact absurd ⟨by omega, by omega, by omega, by omega, by omega, by omega, by omega, by omega, by omega⟩ h

end Chrono
