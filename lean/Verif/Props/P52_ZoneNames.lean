import Verif.Props.P05_TimeZone
import Verif.Spec.ZoneNames
/-!
# C79: the meaning of time-zone abbreviations
-/
namespace Chrono.Props
open Chrono Chrono.Spec Chrono.Boost

/-- Half an hour is added to a western offset instead of subtracted: `-09:30` is taken for 8 hours 30 minutes west. -/
def Meridian.halved : Meridian → Int
  | (true, h, m) => -(60 * (h : Int)) + m
  | (false, h, m) => 60 * (h : Int) + m

/-- Every one of the common abbreviations is known to the program, with its usual offset, except that the minutes of a western offset are
counted east. -/
theorem zones_known : usualZones.all (fun z => tzLookup tzTable z.1 == some (Meridian.halved z.2)) = true := by decide +kernel

/-- **C79.** Each of the listed abbreviations, in any letter case, is known to the program; if its offset is a number of hours, or lies
east of UTC, then the program's offset is the usual one (and no other). -/
theorem c79_usual_meaning (abbr : Text) (z : Meridian) (h : (toUpper abbr, z) ∈ usualZones) (hz : z.1 = false ∨ z.2.2 = 0) (off : Int) :
    ZoneOffset abbr off ↔ off = z.minutes := by
  have h1 := List.all_eq_true.1 zones_known _ h
  simp only [beq_iff_eq] at h1
  rw [← zone_iff, h1, Option.some_inj]
  obtain ⟨w, hh, m⟩ := z
  have e : Meridian.halved (w, hh, m) = Meridian.minutes (w, hh, m) := by
    cases w
    · rfl
    · have : m = 0 := by simpa using hz
      subst this
      simp [Meridian.halved, Meridian.minutes]
  rw [e]
  exact eq_comm

/-- **C79, half hours west**: they are known, with an offset that is twice the minutes too far east (an hour). -/
theorem c79_half_hours_west_an_hour_off (abbr : Text) (h m : Nat) (_hm : m ≠ 0) (hz : (toUpper abbr, true, h, m) ∈ usualZones) (off : Int) :
    ZoneOffset abbr off ↔ off = Meridian.minutes (true, h, m) + 2 * m := by
  have h1 := List.all_eq_true.1 zones_known _ hz
  simp only [beq_iff_eq] at h1
  rw [← zone_iff, h1, Option.some_inj]
  have e : Meridian.halved (true, h, m) = Meridian.minutes (true, h, m) + 2 * m := by
    simp only [Meridian.halved, Meridian.minutes]; omega
  rw [e]
  exact eq_comm

/-- **C79 in a text.** A time of day followed by one of these abbreviations gets the usual offset (for `C47`: where the program looks). -/
theorem c79_in_a_text (text : Text) (r : PResult) (abbr : Text) (z : Meridian) (h : (toUpper abbr, z) ∈ usualZones)
    (hz : z.1 = false ∨ z.2.2 = 0) (hstop : r.index + r.text.length ≤ text.length) (hs : ZoneSuffix (text.drop (r.index + r.text.length)) abbr)
    (ht : r.getTag .timeExpression = true) (hc : r.startDate.certain .tzoffset = false) :
    ∃ r', tzRefine [r] text = .ok [r'] ∧ r'.startDate.get .tzoffset = z.minutes ∧
      ∀ k, k ≠ .tzoffset → r'.startDate.get k = r.startDate.get k := by
  obtain ⟨rs', h1, h2, h3⟩ := c47_only_tagged_times_before_known_zone [r] text
  match rs', h2 with
  | [r'], _ =>
    have := h3 0 (by simp) (by simp)
    simp only [List.getElem_cons_zero] at this
    obtain ⟨-, -, -, k1, -, k2⟩ := this
    have hf : FollowedByZone text r abbr z.minutes := ⟨hstop, hs, (c79_usual_meaning abbr z h hz _).2 rfl⟩
    obtain ⟨-, k3, -⟩ := k2 abbr _ ht hf
    rw [if_neg (by simp [hc])] at k3
    exact ⟨r', h1, k3, k1⟩

/-- The hypotheses are met: half past nine, then `est` in the text. -/
example : (toUpper txt!"est", (true, 5, 0)) ∈ usualZones ∧ Meridian.minutes (true, 5, 0) = -300 ∧
    ZoneSuffix (txt!"9:30 est".drop 4) txt!"est" ∧ (toUpper txt!"nst", (true, 3, 30)) ∈ usualZones ∧ Meridian.minutes (true, 3, 30) = -210 := by
  refine ⟨by decide, by decide, ⟨txt!" ", [], [], by decide, ?_, .inl rfl, .inl rfl, by decide, by decide, ?_⟩, by decide, by decide⟩ <;> decide
example : (usualZones.map Prod.fst).Nodup ∧ usualZones.length = 107 := by decide +kernel

end Chrono.Props
