import Verif.Lemmas.Shift
/-!
# Adding months
-/
namespace Chrono
open Boost Spec

/-- `d + months(n)`, `n` of either sign, in terms of the count of months since year 0. -/
theorem addMonths_count {D : Date} {y m d : Nat} (h : D.ymd = .ok ⟨y, m, d⟩) {n : Int} (h1 : -32767 ≤ n) (h2 : n ≤ 32767)
    {k : Nat} (hk : (k : Int) = 12 * y + (m - 1) + n) (hy1 : 1400 ≤ k / 12) (hy2 : k / 12 ≤ 9999) :
    ∃ D', D.addMonths n = .ok D' ∧ D'.ymd = .ok ⟨k / 12, k % 12 + 1,
      if d = monthLength y m then monthLength (k / 12) (k % 12 + 1) else min d (monthLength (k / 12) (k % 12 + 1))⟩ := by
  obtain ⟨⟨c1, c2, c3, c4, c5, c6⟩, -⟩ := Date.of_ymd h
  have hb := monthLength_bounds (k / 12) (k % 12 + 1) (by omega) (by omega)
  have hc : CivilInRange (k / 12) (k % 12 + 1)
      (if d = monthLength y m then monthLength (k / 12) (k % 12 + 1) else min d (monthLength (k / 12) (k % 12 + 1))) := by
    refine ⟨hy1, hy2, by omega, by omega, ?_, ?_⟩ <;> split <;> omega
  refine ⟨_, ?_, Date.ymd_of_civil hc⟩
  unfold Date.addMonths
  rw [h]
  simp only [Out.bind_ok]
  rw [if_neg (by omega)]
  have e : (y : Int) * 12 + ((m : Int) - 1) + n = (k : Int) := by omega
  rw [e]
  have e1 : (k : Int) / 12 = ((k / 12 : Nat) : Int) := by omega
  have e2 : (k : Int) % 12 + 1 = ((k % 12 + 1 : Nat) : Int) := by omega
  rw [e1, e2, if_neg (by omega)]
  simp only [Int.toNat_natCast]
  rw [endOfMonthDay_eq _ _ c3 c4, endOfMonthDay_eq _ _ (by omega) (by omega)]
  exact mkDate_civil hc

theorem addMonths_later {D : Date} {y m d : Nat} (h : D.ymd = .ok ⟨y, m, d⟩) {n : Nat} (hn : n ≤ 32767)
    (hy : (monthsLater n (y, m, d)).1 ≤ 9999) :
    ∃ D', D.addMonths n = .ok D' ∧
      D'.ymd = .ok ⟨(monthsLater n (y, m, d)).1, (monthsLater n (y, m, d)).2.1, (monthsLater n (y, m, d)).2.2⟩ := by
  obtain ⟨⟨c1, c2, c3, c4, c5, c6⟩, -⟩ := Date.of_ymd h
  have hy' : (12 * y + (m - 1) + n) / 12 ≤ 9999 := hy
  exact addMonths_count h (by omega) (by omega) (k := 12 * y + (m - 1) + n) (by omega) (by omega) hy'

end Chrono
