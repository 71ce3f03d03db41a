import Verif.Props.P25_Relative
import Verif.Model.Parsers.DayOfWeek
/-!
# C41: weekdays
-/
namespace Chrono.Props
open Chrono Chrono.Spec Chrono.Boost

theorem dayNumber_lower' {y m d : Nat} (hy : 1401 ≤ y) (h : Civil y m d) : minDN + 365 ≤ dayNumber y m d := by
  obtain ⟨h1, h2, h3, h4⟩ := h
  have k0 := dayNumber_eq y m d h1 h2 h3
  unfold minDN
  interval_cases m <;> simp at k0 <;> omega

theorem dayNumber_upper9998 {y m d : Nat} (hy : y ≤ 9998) (h : Civil y m d) : dayNumber y m d + 365 ≤ maxDN := by
  obtain ⟨h1, h2, h3, h4⟩ := h
  have k0 := dayNumber_eq y m d h1 h2 h3
  have hb := monthLength_bounds y m h1 h2
  unfold maxDN
  interval_cases m <;> simp [monthLength] at k0 h4 <;> first | omega | (split at h4 <;> omega)

theorem firstAfter_eq {w M : Nat} (hw : w < 7) (h1 : minDN ≤ M) (h2 : M + 8 ≤ maxDN) :
    ∃ j, 1 ≤ j ∧ j ≤ 7 ∧ firstAfter w ⟨M⟩ = .ok ⟨((M + j : Nat) : Int)⟩ ∧ (M + j + 1) % 7 = w := by
  unfold firstAfter
  rw [Date.addDays_ok (D := ⟨M⟩) (by simp only; omega) (by simp only; omega), Out.bind_ok]
  obtain ⟨j, hj, e1, e2⟩ := stepForward_ok w 7 ⟨(M : Int) + 1⟩ (by simp only; omega) (by simp only; omega)
    (exists_weekday w hw _ (by simp only; unfold minDN at h1; omega)).1
  simp only at e1 e2
  have e : (M : Int) + 1 + (j : Int) = ((M + (j + 1) : Nat) : Int) := by push_cast; omega
  rw [e] at e1 e2
  refine ⟨j + 1, by omega, by omega, e1, ?_⟩
  rw [Int.toNat_natCast] at e2
  exact e2

theorem firstBefore_eq {w M : Nat} (hw : w < 7) (h1 : minDN + 8 ≤ M) (h2 : M ≤ maxDN) :
    ∃ j, 1 ≤ j ∧ j ≤ 7 ∧ firstBefore w ⟨M⟩ = .ok ⟨((M - j : Nat) : Int)⟩ ∧ (M - j + 1) % 7 = w := by
  unfold firstBefore
  rw [Date.addDays_ok (D := ⟨M⟩) (by simp only; omega) (by simp only; omega), Out.bind_ok]
  obtain ⟨j, hj, e1, e2⟩ := stepBack_ok w 7 ⟨(M : Int) + -1⟩ (by simp only; omega) (by simp only; omega)
    (exists_weekday w hw _ (by simp only; unfold minDN at h1; omega)).2
  simp only at e1 e2
  have e : (M : Int) + -1 - (j : Int) = ((M - (j + 1) : Nat) : Int) := by omega
  rw [e] at e1 e2
  refine ⟨j + 1, by omega, by omega, e1, ?_⟩
  rw [Int.toNat_natCast] at e2
  exact e2

/-- How many weeks the modifier moves. -/
def weeksMoved (modifier : Text) : Option Int :=
  if modifier = txt!"last" ∨ modifier = txt!"past" then some (-1)
  else if modifier = txt!"next" then some 1
  else if modifier = txt!"this" ∨ modifier = [] then some 0 else none

theorem weekdayDate_eq {ref : PTime} {M w k : Nat} {modifier : Text} {q : Int} (hw : w < 7) (hk : k < 7) (hd : ref.date = ⟨M⟩)
    (hM1 : minDN + 30 ≤ M) (hM2 : M + 30 ≤ maxDN) (hMk : (M + 1) % 7 = k) (hq : weeksMoved modifier = some q) :
    ∃ b, weekdayDate ref w modifier = .ok (⟨M - k + w + 7 * q⟩, b) := by
  have hdow : (Date.mk (M : Int)).dayOfWeek = .ok k := by
    rw [Date.dow_of_inRange ⟨by simp only; omega, by simp only; omega⟩]
    simp only [Int.toNat_natCast, hMk]
  have near : ∀ (N : Nat) (f : Date → Out (Date × Bool)), minDN + 10 ≤ N → N + 10 ≤ maxDN → (N + 1) % 7 = k →
      (if w < k then (firstBefore w ⟨N⟩ >>= f) else if w > k then (firstAfter w ⟨N⟩ >>= f) else ((pure ⟨N⟩ : Out Date) >>= f)) =
        f ⟨(N : Int) - k + w⟩ := by
    intro N f h1 h2 hN
    split
    · obtain ⟨j, j1, j2, j3, j4⟩ := firstBefore_eq hw (M := N) (by omega) (by omega)
      rw [j3, show ((N - j : Nat) : Int) = N - k + w by omega, Out.bind_ok]
    · split
      · obtain ⟨j, j1, j2, j3, j4⟩ := firstAfter_eq hw (M := N) (by omega) (by omega)
        rw [j3, show ((N + j : Nat) : Int) = N - k + w by omega, Out.bind_ok]
      · show f _ = _
        congr 2; omega
  unfold weekdayDate
  simp only [hd]
  rw [hdow, Out.bind_ok]
  unfold weeksMoved at hq
  split at hq
  · rename_i hm
    cases hq
    rw [if_pos hm, Date.addDays_ok (D := ⟨M⟩) (by simp only; omega) (by simp only; omega), Out.bind_ok]
    have e : (M : Int) + -7 = ((M - 7 : Nat) : Int) := by omega
    simp only [e]
    rw [near (M - 7) (fun d => pure (d, true)) (by omega) (by omega) (by omega)]
    exact ⟨true, by rw [show ((M - 7 : Nat) : Int) - k + w = M - k + w + 7 * -1 by omega]; rfl⟩
  · rename_i hm
    rw [if_neg hm]
    split at hq
    · rename_i hm2
      cases hq
      rw [if_pos hm2, Date.addDays_ok (D := ⟨M⟩) (by simp only; omega) (by simp only; omega), Out.bind_ok]
      have e : (M : Int) + 7 = ((M + 7 : Nat) : Int) := by omega
      simp only [e]
      rw [near (M + 7) (fun d => pure (d, true)) (by omega) (by omega) (by omega)]
      exact ⟨true, by rw [show ((M + 7 : Nat) : Int) - k + w = M - k + w + 7 * 1 by omega]; rfl⟩
    · rename_i hm2
      rw [if_neg hm2]
      split at hq
      · rename_i hm3
        cases hq
        rw [if_pos hm3]
        have h1 := near M (fun d => pure (d, false)) (by omega) (by omega) hMk
        have h2 : ∀ f : Date → Out (Date × Bool), (if w = k then ((pure ⟨M⟩ : Out Date) >>= f) else if w < k then (firstBefore w ⟨M⟩ >>= f) else (firstAfter w ⟨M⟩ >>= f)) =
            (if w < k then (firstBefore w ⟨M⟩ >>= f) else if w > k then (firstAfter w ⟨M⟩ >>= f) else ((pure ⟨M⟩ : Out Date) >>= f)) := by
          intro f
          by_cases a : w = k
          · rw [if_pos a, if_neg (by omega), if_neg (by omega)]
          · rw [if_neg a]
            by_cases b : w < k
            · rw [if_pos b, if_pos b]
            · rw [if_neg b, if_neg b, if_pos (by omega)]
        rw [h2, h1]
        exact ⟨false, by rw [show (M : Int) - k + w + 7 * 0 = M - k + w by omega]; rfl⟩
      · cases hq

/-- What a timing word says about the time of day. -/
def timingClock (timing : Text) : Nat × Nat :=
  if timing = txt!"earlier" ∨ timing = txt!"early" then (6, 1) else if timing = txt!"late" then (20, 1) else (0, 0)

theorem update_ok {ref : PTime} {idx w : Nat} {text modifier timing : Text} {D : Date} {b : Bool} {z : Nat × Nat × Nat}
    (h : weekdayDate ref w modifier = .ok (D, b)) (hD : D.ymd = .ok ⟨z.1, z.2.1, z.2.2⟩) :
    ∃ r, updateParsedComponent (PResult.mk' ref idx text) ref w modifier timing = .ok r ∧ DateIs r.startDate z ∧
      TimeIs r.startDate (timingClock timing).1 (timingClock timing).2 0 ∧ r.hasEnd = false := by
  obtain ⟨h1, h2, h3, -⟩ := Date.year_of_ymd hD
  unfold updateParsedComponent
  rw [h, Out.bind_ok]
  simp only []
  rw [h3, Out.bind_ok, h2, Out.bind_ok, h1, Out.bind_ok]
  refine ⟨_, rfl, ?_⟩
  unfold timingClock DateIs TimeIs
  split
  · split <;> simp [get_imply]
  · split <;> split <;> simp [get_imply]

/-- **C41.** Let `s` be the Sunday on or before the reference date (`k ≤ 6` days before it; reference year 1401 to 9998).
`updateParsedComponent`, asked for weekday `w` (0 = Sunday), sets the date to: for `this` or no modifier, `w` days after
`s`; for `next`, `7 + w` days after `s`; for `last` and `past`, the date `z` such that `7` days after `z` is `w` days after
`s`.  The time is 06:01 for early, 20:01 for late, else midnight. -/
theorem c41_weekday (ref : PTime) (x : DateTime) (hx : RefReads ref x) (hy1 : 1401 ≤ x.year) (hy2 : x.year ≤ 9998)
    (s : Nat × Nat × Nat) (k : Nat) (hs : CivilInRange s.1 s.2.1 s.2.2) (hsun : weekday s.1 s.2.1 s.2.2 = 0)
    (hk : k ≤ 6) (hsk : daysLater k s = x.date) (w : Nat) (hw : w ≤ 6) (idx : Nat) (text modifier timing : Text)
    (z : Nat × Nat × Nat) (hz : Civil z.1 z.2.1 z.2.2) (hz1 : 1 ≤ z.1)
    (hm : (modifier = txt!"this" ∨ modifier = []) ∧ z = daysLater w s ∨
          modifier = txt!"next" ∧ z = daysLater (7 + w) s ∨
          (modifier = txt!"last" ∨ modifier = txt!"past") ∧ daysLater 7 z = daysLater w s) :
    ∃ r, updateParsedComponent (PResult.mk' ref idx text) ref w modifier timing = .ok r ∧ DateIs r.startDate z ∧
      TimeIs r.startDate (timingClock timing).1 (timingClock timing).2 0 ∧ r.hasEnd = false := by
  obtain ⟨hc, -, -, -, us, -, -, -, hrd⟩ := refReads_us hx
  have hl := dayNumber_lower' hy1 hc.2.2
  have hu := dayNumber_upper9998 hy2 hc.2.2
  obtain ⟨sy, sm, sd⟩ := s
  simp only at hs hsun
  have hs1 : 1 ≤ sy := Nat.le_trans (by decide) hs.1
  obtain ⟨-, -, ck⟩ := daysLater_civil k hs1 hs.2.2
  rw [hsk] at ck
  have ck' : dayNumber x.year x.month x.day = dayNumber sy sm sd + k := ck
  have e2 := weekday_eq hs
  rw [hsun] at e2
  obtain ⟨-, -, cw⟩ := daysLater_civil w hs1 hs.2.2
  obtain ⟨-, -, cw7⟩ := daysLater_civil (7 + w) hs1 hs.2.2
  -- the day number of `z`
  have hzn : ∃ q : Int, weeksMoved modifier = some q ∧ (dayNumber z.1 z.2.1 z.2.2 : Int) = dayNumber x.year x.month x.day - k + w + 7 * q := by
    rcases hm with ⟨h, rfl⟩ | ⟨rfl, rfl⟩ | ⟨h, h7⟩
    · refine ⟨0, ?_, ?_⟩
      · rcases h with rfl | rfl <;> decide
      · rw [cw, ck']; push_cast; omega
    · refine ⟨1, by decide, ?_⟩
      rw [cw7, ck']; push_cast; omega
    · refine ⟨-1, ?_, ?_⟩
      · rcases h with rfl | rfl <;> decide
      · obtain ⟨-, -, c7⟩ := daysLater_civil (y := z.1) (m := z.2.1) (d := z.2.2) 7 hz1 hz
        have h7' : daysLater 7 (z.1, z.2.1, z.2.2) = daysLater w (sy, sm, sd) := h7
        rw [h7', cw] at c7
        rw [ck']
        generalize dayNumber z.1 z.2.1 z.2.2 = Z at *
        push_cast; omega
  obtain ⟨q, hq, hzn⟩ := hzn
  have hq3 : -1 ≤ q ∧ q ≤ 1 := by
    unfold weeksMoved at hq
    split at hq
    · cases hq; decide
    · split at hq
      · cases hq; decide
      · split at hq
        · cases hq; decide
        · cases hq
  have hzc : CivilInRange z.1 z.2.1 z.2.2 := by
    refine ⟨?_, ?_, hz⟩
    · by_contra hcon
      have : dayNumber z.1 z.2.1 z.2.2 < minDN := by
        obtain ⟨h1, h2, h3, h4⟩ := hz
        have k0 := dayNumber_eq z.1 z.2.1 z.2.2 h1 h2 h3
        have hb := monthLength_bounds z.1 z.2.1 h1 h2
        unfold minDN
        generalize z.2.1 = mm at *
        interval_cases mm <;> simp [monthLength] at k0 h4 <;> first | omega | (split at h4 <;> omega)
      generalize dayNumber z.1 z.2.1 z.2.2 = Z at *
      omega
    · by_contra hcon
      have : maxDN < dayNumber z.1 z.2.1 z.2.2 := by
        obtain ⟨h1, h2, h3, h4⟩ := hz
        have k0 := dayNumber_eq z.1 z.2.1 z.2.2 h1 h2 h3
        unfold maxDN
        generalize z.2.1 = mm at *
        interval_cases mm <;> simp at k0 <;> omega
      generalize dayNumber z.1 z.2.1 z.2.2 = Z at *
      omega
  have hMk : (dayNumber x.year x.month x.day + 1) % 7 = k := by
    rw [ck']
    generalize dayNumber sy sm sd = S at *
    omega
  obtain ⟨b, hb⟩ := weekdayDate_eq (modifier := modifier) (w := w) (by omega) (by omega) hrd (Nat.le_trans (Nat.add_le_add_left (by decide) _) hl) (Nat.le_trans (Nat.add_le_add_left (by decide) _) hu) hMk hq
  rw [← hzn] at hb
  exact update_ok hb (Date.ymd_of_civil hzc)

/-- The hypotheses are met: Friday 15 March 2019, its week began on Sunday 10 March; next Tuesday is 19 March, last Friday
8 March. -/
example : daysLater 5 (2019, 3, 10) = (2019, 3, 15) ∧ daysLater (7 + 2) (2019, 3, 10) = (2019, 3, 19) ∧
    daysLater 7 (2019, 3, 8) = daysLater 5 (2019, 3, 10) := by decide

end Chrono.Props
