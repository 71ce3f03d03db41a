import Verif.Lemmas.DateOps
/-!
# Reference times moved by days and seconds
-/
namespace Chrono
open Boost Spec Props

theorem Spec.RefReads.shift {ref : PTime} {t t' : DateTime} (h : RefReads ref t) (hv : t'.Valid) {n : Int}
    (hn : instant t' = instant t + n) : RefReads ⟨ref.us + n * 1000000⟩ t' := by
  obtain ⟨-, -, -, -, us, h0, h1, h2, -⟩ := refReads_us h
  refine refReads_of_us hv h0 h1 ?_
  simp only [h2, hn]
  generalize instant t = K
  omega

theorem instant_onDate (t : DateTime) (x : Nat × Nat × Nat) :
    instant (t.onDate x) = instant t + ((dayNumber x.1 x.2.1 x.2.2 : Int) - dayNumber t.year t.month t.day) * 86400 := by
  unfold instant DateTime.onDate
  simp only
  generalize dayNumber x.1 x.2.1 x.2.2 = a
  generalize dayNumber t.year t.month t.day = b
  push_cast
  omega

theorem Spec.RefReads.addDays {ref : PTime} {t : DateTime} (h : RefReads ref t) {x : Nat × Nat × Nat} {n : Int}
    (hx : CivilInRange x.1 x.2.1 x.2.2) (hn : (dayNumber x.1 x.2.1 x.2.2 : Int) = dayNumber t.year t.month t.day + n) :
    RefReads (ref.addDays n) (t.onDate x) := by
  obtain ⟨-, h4, h5, h6⟩ := h.valid
  have := Spec.RefReads.shift h (t' := t.onDate x) (n := n * 86400) ⟨hx, h4, h5, h6⟩ (by
    rw [instant_onDate]
    generalize dayNumber x.1 x.2.1 x.2.2 = a at *
    generalize dayNumber t.year t.month t.day = b at *
    omega)
  unfold PTime.addDays
  have e : n * 86400 * 1000000 = n * 86400000000 := by omega
  rw [e] at this
  exact this

/-- `n` days later. -/
theorem Spec.RefReads.daysLater {ref : PTime} {t : DateTime} (h : RefReads ref t) (n : Nat)
    (hx : CivilInRange (daysLater n t.date).1 (daysLater n t.date).2.1 (daysLater n t.date).2.2) :
    RefReads (ref.addDays n) (t.onDate (Spec.daysLater n t.date)) := by
  refine h.addDays hx ?_
  obtain ⟨hc, -⟩ := refReads_us h
  obtain ⟨-, -, hdn⟩ := daysLater_civil n (Nat.le_trans (by decide) hc.1) hc.2.2
  unfold DateTime.date
  rw [hdn]; push_cast; rfl

/-- `n` days earlier. -/
theorem Spec.RefReads.daysEarlier {ref : PTime} {t : DateTime} (h : RefReads ref t) (n : Nat) {x : Nat × Nat × Nat}
    (hx : CivilInRange x.1 x.2.1 x.2.2) (hn : Spec.daysLater n x = t.date) :
    RefReads (ref.addDays (-n)) (t.onDate x) := by
  refine h.addDays hx ?_
  obtain ⟨-, -, hdn⟩ := daysLater_civil (y := x.1) (m := x.2.1) (d := x.2.2) n (Nat.le_trans (by decide) hx.1) hx.2.2
  have hn' : Spec.daysLater n (x.1, x.2.1, x.2.2) = t.date := hn
  rw [hn'] at hdn
  unfold DateTime.date at hdn
  simp only at hdn
  generalize dayNumber x.1 x.2.1 x.2.2 = a at *
  generalize dayNumber t.year t.month t.day = b at *
  omega

/-! ## Seconds -/

/-- A civil date (any year from 1 on) and a time of day. -/
def Spec.DateTime.Wf (t : DateTime) : Prop :=
  1 ≤ t.year ∧ Civil t.year t.month t.day ∧ t.hour < 24 ∧ t.minute < 60 ∧ t.second < 60

theorem tick_wf {t : DateTime} (h : t.Wf) : t.tick.Wf ∧ t.year ≤ t.tick.year ∧ instant t.tick = instant t + 1 := by
  obtain ⟨h1, h2, h3, h4, h5⟩ := h
  unfold DateTime.tick
  split
  · refine ⟨⟨h1, h2, h3, h4, by simp only; omega⟩, Nat.le_refl _, ?_⟩
    unfold instant; simp only
    generalize dayNumber t.year t.month t.day = b; push_cast; omega
  split
  · refine ⟨⟨h1, h2, h3, by simp only; omega, by simp⟩, Nat.le_refl _, ?_⟩
    unfold instant; simp only
    generalize dayNumber t.year t.month t.day = b; push_cast; omega
  split
  · refine ⟨⟨h1, h2, by simp only; omega, by simp, by simp⟩, Nat.le_refl _, ?_⟩
    unfold instant; simp only
    generalize dayNumber t.year t.month t.day = b; push_cast; omega
  · obtain ⟨a, b, c⟩ := daysLater_civil 1 h1 h2
    have e : Spec.daysLater 1 (t.year, t.month, t.day) = nextDay (t.year, t.month, t.day) := rfl
    rw [e] at a b c
    refine ⟨⟨Nat.le_trans h1 b, a, by simp, by simp, by simp⟩, b, ?_⟩
    unfold instant; simp only
    rw [c]
    generalize dayNumber t.year t.month t.day = b; push_cast; omega

theorem secondsLater_wf (n : Nat) : ∀ {t : DateTime}, t.Wf →
    (t.secondsLater n).Wf ∧ t.year ≤ (t.secondsLater n).year ∧ instant (t.secondsLater n) = instant t + n := by
  induction n with
  | zero => intro t h; exact ⟨h, Nat.le_refl _, by simp [DateTime.secondsLater]⟩
  | succ n ih =>
    intro t h
    obtain ⟨a, b, c⟩ := tick_wf h
    obtain ⟨a', b', c'⟩ := ih a
    unfold DateTime.secondsLater
    refine ⟨a', Nat.le_trans b b', ?_⟩
    rw [c', c]; push_cast; omega

theorem DateTime.Valid.wf {t : DateTime} (h : t.Valid) : t.Wf :=
  ⟨Nat.le_trans (by decide) h.1.1, h.1.2.2, h.2⟩

/-- `n` seconds later. -/
theorem Spec.RefReads.secondsLater {ref : PTime} {t : DateTime} (h : RefReads ref t) (n : Nat)
    (hy : (t.secondsLater n).year ≤ 9999) : RefReads (ref.addSeconds n) (t.secondsLater n) := by
  obtain ⟨a, b, c⟩ := secondsLater_wf n (DateTime.Valid.wf h.valid)
  exact Spec.RefReads.shift h ⟨⟨Nat.le_trans h.valid.1.1 b, hy, a.2.1⟩, a.2.2⟩ c

/-- `n` seconds earlier. -/
theorem Spec.RefReads.secondsEarlier {ref : PTime} {t t' : DateTime} (h : RefReads ref t) (n : Nat)
    (hv : t'.Valid) (hn : t'.secondsLater n = t) : RefReads (ref.addSeconds (-n)) t' := by
  obtain ⟨a, b, c⟩ := secondsLater_wf n (DateTime.Valid.wf hv)
  rw [hn] at c
  exact Spec.RefReads.shift h hv (by rw [c]; generalize instant t' = K; omega)

end Chrono
