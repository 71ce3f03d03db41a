import Verif.Props.P39_MilitaryTimes
import Verif.Props.P20_Phrases
/-!
# C70 through the program
-/
namespace Chrono.Props
open Chrono Chrono.Spec Chrono.Boost

theorem hhmm_othersShort : (leadIns.all fun l => [true, false].all fun short => suffixes.all fun s =>
    othersShort 8 (l ++ hhmmText short 11 11 ++ s.1) && decide ((l ++ hhmmText short 11 11 ++ s.1).length < 4294967296)) = true := by
  decide +kernel

/-- **C70 (printed, without a colon).** For every reference time the program run on `930`, `1730`, `at 1330`, `0930 pm`, ... (hour below
24, value above 100) prints the reference date at that hour and minute. -/
theorem c70_without_colon_printed (rt : Rt) (hrt : Rt.Defined rt) (sort : List PResult → List PResult) (hs : Sorts sort)
    (ref : PTime) (x : DateTime) (hx : RefReads ref x) (l : Text) (hl : l ∈ leadIns)
    (short : Bool) (h mi : Nat) (s : Text × Option Bool) (hsf : s ∈ suffixes)
    (hh : h < 24) (h9 : short = true → h ≤ 9) (h12 : s.1 ≠ [] → h ≤ 12) (hmi : mi < 60) (h100 : 100 < 100 * h + mi) :
    mainRun rt sort (l ++ hhmmText short h mi ++ s.1) ref =
      .ok (foundLine ++ (DateTime.mk x.year x.month x.day (hour24 h s.2) mi 0).format) := by
  have hc := List.all_eq_true.1 (List.all_eq_true.1 (List.all_eq_true.1 hhmm_othersShort l hl) short (by cases short <;> simp)) s hsf
  simp only [Bool.and_eq_true, decide_eq_true_eq] at hc
  have hdr := dr_hhmm l short h mi s.1
  have h24 : hour24 h s.2 < 24 := by
    unfold hour24
    rcases s.2 with _ | _ | _ <;> simp <;> omega
  exact prints_date hrt hs (by rw [hdr.length_eq]; exact hc.2) hx 8 rfl
    (t := ⟨x.year, x.month, x.day, hour24 h s.2, mi, 0⟩) ⟨hx.valid.1, h24, hmi, by simp⟩
    (c70_without_colon rt hrt.stale integerWords ref x hx l hl short h mi s hsf (by omega) h9 h12 hmi h100)
    (fun r h => ⟨h.1, h.2.1, h.2.2.1⟩) (by rw [toLower_hhmm hl hsf]; exact othersShort_sim hdr hc.1)

theorem at_othersShort : ([true, false].all fun short => [Tail.none, .minutes 11, .seconds 11 11].all fun t => suffixes.all fun s =>
    othersShort 8 (txt!"at " ++ clockText short 11 t s.1) && decide ((txt!"at " ++ clockText short 11 t s.1).length < 4294967296)) = true := by
  decide +kernel

theorem from_othersShort : ([true, false].all fun short => [Tail.none, .minutes 11, .seconds 11 11].all fun t => suffixes.all fun s =>
    othersShort 8 (txt!"from " ++ clockText short 11 t s.1) && decide ((txt!"from " ++ clockText short 11 t s.1).length < 4294967296)) = true := by
  decide +kernel

/-- **C70 (printed, at and from).** For every reference time the program run on `at 5:30 pm`, `from 17:30`, ... (hour below 24) prints
the reference date at that time. -/
theorem c70_at_from_printed (rt : Rt) (hrt : Rt.Defined rt) (sort : List PResult → List PResult) (hs : Sorts sort)
    (ref : PTime) (x : DateTime) (hx : RefReads ref x) (l : Text) (hl : l ∈ [txt!"at ", txt!"from "])
    (short : Bool) (h : Nat) (t : Tail) (s : Text × Option Bool) (hsf : s ∈ suffixes)
    (hh : h < 24) (h9 : short = true → h ≤ 9) (h12 : s.1 ≠ [] → h ≤ 12) (hmi : t.minute < 60) (hsec : t.second < 60) :
    mainRun rt sort (l ++ clockText short h t s.1) ref =
      .ok (foundLine ++ (DateTime.mk x.year x.month x.day (hour24 h s.2) t.minute t.second).format) := by
  have hc : (othersShort 8 (l ++ clockText short 11 t.ones s.1) && decide ((l ++ clockText short 11 t.ones s.1).length < 4294967296)) = true := by
    simp only [List.mem_cons, List.not_mem_nil, or_false] at hl
    rcases hl with rfl | rfl
    · exact List.all_eq_true.1 (List.all_eq_true.1 (List.all_eq_true.1 at_othersShort short (by cases short <;> simp))
        t.ones (by cases t <;> simp [Tail.ones])) s hsf
    · exact List.all_eq_true.1 (List.all_eq_true.1 (List.all_eq_true.1 from_othersShort short (by cases short <;> simp))
        t.ones (by cases t <;> simp [Tail.ones])) s hsf
  simp only [Bool.and_eq_true, decide_eq_true_eq] at hc
  have hdr := dr_lead l short h t s.1
  have h24 : hour24 h s.2 < 24 := by
    unfold hour24
    rcases s.2 with _ | _ | _ <;> simp <;> omega
  exact prints_date hrt hs (by rw [hdr.length_eq]; exact hc.2) hx 8 rfl
    (t := ⟨x.year, x.month, x.day, hour24 h s.2, t.minute, t.second⟩) ⟨hx.valid.1, h24, hmi, hsec⟩
    (c70_at_from rt hrt.stale integerWords ref x hx l hl short h t s hsf (by omega) h9 h12 hmi hsec)
    (fun r h => ⟨h.1, h.2.1, h.2.2.1⟩) (by rw [toLower_lead hl hsf]; exact othersShort_sim hdr hc.1)

/-- **C70 (printed, midnight).** For every reference time, `midnight`, `at midnight`, `from midnight` print the reference date at 0:00. -/
theorem c70_midnight_printed (rt : Rt) (hrt : Rt.Defined rt) (sort : List PResult → List PResult) (hs : Sorts sort)
    (ref : PTime) (x : DateTime) (hx : RefReads ref x) :
    ∀ w ∈ hourWords, w.2 = 0 →
      mainRun rt sort w.1 ref = .ok (foundLine ++ (DateTime.mk x.year x.month x.day w.2 0 0).format) := by
  intro w hw hne
  have hck : (hourWords.all fun w => w.2 != 0 || (othersShort 8 (toLower w.1) && decide (w.1.length < 4294967296))) = true := by
    decide +kernel
  have h1 := List.all_eq_true.1 hck w hw
  rw [show (w.2 != 0) = false by simp [hne], Bool.false_or, Bool.and_eq_true, decide_eq_true_eq] at h1
  exact prints_date hrt hs h1.2 hx 8 rfl (t := ⟨x.year, x.month, x.day, w.2, 0, 0⟩)
    ⟨hx.valid.1, by simp only [hne]; decide, by simp, by simp⟩
    (c70_noon_midnight rt hrt.stale integerWords ref x hx w hw) (fun r h => ⟨h.1, h.2.1, h.2.2.1⟩) h1.1

example : printed (mainRun (Rt.usual 0) sortKeep txt!"at 1330" exampleRef) txt!"Date:\t2019-Mar-15 13:30:00" = true := by decide +kernel

end Chrono.Props
