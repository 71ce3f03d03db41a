import Verif.Lemmas.Phrase
import Verif.Props.P09_History
/-!
# C19, C36, C37: US holidays
-/
namespace Chrono.Props
open Chrono Chrono.Spec Chrono.Boost

/-- Each phrase with the day it denotes in year `y`. -/
def statutory : List (Text × (Nat → Nat → Nat → Prop)) :=
  [(txt!"independence day", fun _ m d => m = 7 ∧ d = 4),
   (txt!"new year's day", fun _ m d => m = 1 ∧ d = 1),
   (txt!"veterans day", fun _ m d => m = 11 ∧ d = 11),
   (txt!"mlk day", fun y m d => m = 1 ∧ IsNthWeekday 3 1 y m d),
   (txt!"martin luther king jr day", fun y m d => m = 1 ∧ IsNthWeekday 3 1 y m d),
   (txt!"president's day", fun y m d => m = 2 ∧ IsNthWeekday 3 1 y m d),
   (txt!"memorial day", fun y m d => m = 5 ∧ IsLastWeekday 1 y m d),
   (txt!"labor day", fun y m d => m = 9 ∧ IsNthWeekday 1 1 y m d),
   (txt!"columbus day", fun y m d => m = 10 ∧ IsNthWeekday 2 1 y m d),
   (txt!"thanksgiving day", fun y m d => m = 11 ∧ IsNthWeekday 4 4 y m d)]

/-- Midnight at the beginning of the day `(y, m, d)`, no end. -/
def WholeDay (y m d : Nat) (r : PResult) : Prop :=
  DateIs r.startDate (y, m, d) ∧ TimeIs r.startDate 0 0 0 ∧ r.hasEnd = false

theorem holiday_fixed {rt : Rt} (hrt : rt.Benign) (g : Globals) {ref : PTime} {y : Int} (hy : y ≠ 0)
    {phrase text : Text} {mt : Match} (hl : toLower phrase = phrase) (hf : FoundAt0 Ast.holiday phrase mt)
    (ht : mt.str 0 = text) {m d : Int} {Q : PResult → Prop}
    (hx : holidayDate (PResult.mk' ref 0 text) text ref = .ok (setFixed (PResult.mk' ref 0 text) y m d))
    (hQ : Q (((setFixed (PResult.mk' ref 0 text) y m d).onStart (fun c => (c.set .hour 0).set .min 0)).setTag .usHolidays).copy) :
    Yields (execute rt holidayParser g phrase ref) text Q := by
  refine yields_of hrt holiday_pattern holiday_min hl hf (pureExtract_ok (r := ((setFixed (PResult.mk' ref 0 text) y m d).onStart (fun c => (c.set .hour 0).set .min 0)).setTag .usHolidays) ?_) ?_ ?_ ?_ hQ
  · unfold holidayExtract; simp only [ht]; rw [hx]; rfl
  · refine hasPossibleDates_of_year ?_
    simp [setFixed, hy]
  · simp [setFixed]
  · simp [setFixed]

theorem holiday_day {rt : Rt} (hrt : rt.Benign) (g : Globals) {ref : PTime} {D : Date} {y m d : Nat} {k : Int}
    (hymd : D.ymd = .ok ⟨y, m, d⟩)
    {phrase text : Text} {mt : Match} (hl : toLower phrase = phrase) (hf : FoundAt0 Ast.holiday phrase mt)
    (ht : mt.str 0 = text)
    (hx : holidayDate (PResult.mk' ref 0 text) text ref = setDay (PResult.mk' ref 0 text) D k) :
    Yields (execute rt holidayParser g phrase ref) text fun r =>
      r.startDate.get .year = y ∧ r.startDate.get .month = m ∧ r.startDate.get .mday = d + k ∧
      r.startDate.get .wday = weekday y m d + k ∧ TimeIs r.startDate 0 0 0 ∧ r.hasEnd = false := by
  obtain ⟨hc, -⟩ := Date.of_ymd hymd
  obtain ⟨h1, h2, h3, h4⟩ := Date.year_of_ymd hymd
  rw [weekday_dow hc] at h4
  have hy : (y : Int) ≠ 0 := by have := hc.1; omega
  unfold setDay at hx
  rw [h1, h2, h3, h4] at hx
  simp only [Out.bind_ok, Out.pure_eq] at hx
  refine yields_of hrt holiday_pattern holiday_min hl hf (pureExtract_ok (r := ((((PResult.mk' ref 0 text).onStart (fun c =>
    (((c.set .year y).set .month m).set .mday (d + k)).set .wday ((weekday y m d : Int) + k)))).onStart (fun c => (c.set .hour 0).set .min 0)).setTag .usHolidays) ?_) ?_ ?_ ?_ ?_
  · unfold holidayExtract; simp only [ht]; rw [hx]; rfl
  · refine hasPossibleDates_of_year ?_
    simpa using hy
  · simp
  · simp
  · simp [TimeIs]

theorem nth_ymd {n w y m : Nat} (hn1 : 1 ≤ n) (hn2 : n ≤ 4) (hw : w < 7) (hy1 : 1400 ≤ y) (hy2 : y ≤ 9999)
    (hm1 : 1 ≤ m) (hm2 : m ≤ 12) :
    ∃ d D, IsNthWeekday n w y m d ∧ nthKday n w m (y : Int) = .ok D ∧ D.ymd = .ok ⟨y, m, d⟩ := by
  obtain ⟨d, h1, h2⟩ := nthKday_spec (m := m) hn1 hn2 hw hy1 hy2 hm1 hm2
  exact ⟨d, _, h1, h2, Date.ymd_of_civil ⟨hy1, hy2, h1.1⟩⟩

theorem last_ymd {w y m : Nat} (hw : w < 7) (hy1 : 1400 ≤ y) (hy2 : y ≤ 9999) (hm1 : 1 ≤ m) (hm2 : m ≤ 12) :
    ∃ d D, IsLastWeekday w y m d ∧ lastKday w m (y : Int) = .ok D ∧ D.ymd = .ok ⟨y, m, d⟩ := by
  obtain ⟨d, h1, h2⟩ := lastKday_spec (m := m) hw hy1 hy2 hm1 hm2
  exact ⟨d, _, h1, h2, Date.ymd_of_civil ⟨hy1, hy2, h1.1⟩⟩

theorem fixed_whole {ref : PTime} {text : Text} {y m d : Nat} :
    WholeDay y m d (((setFixed (PResult.mk' ref 0 text) y m d).onStart (fun c => (c.set .hour 0).set .min 0)).setTag .usHolidays).copy := by
  simp [WholeDay, setFixed, DateIs, TimeIs]

theorem day_whole {y m d : Nat} {r : PResult} (h : r.startDate.get .year = y ∧ r.startDate.get .month = m ∧
    r.startDate.get .mday = d + (0 : Int) ∧ r.startDate.get .wday = weekday y m d + (0 : Int) ∧
    TimeIs r.startDate 0 0 0 ∧ r.hasEnd = false) : WholeDay y m d r := by
  obtain ⟨h1, h2, h3, -, h5, h6⟩ := h
  exact ⟨⟨h1, h2, by rw [h3]; simp⟩, h5, h6⟩

/-- **C36.** For every reference time (so for every year 1400..9999) each holiday phrase yields exactly one result,
which covers the phrase and is the statutory day of that holiday in the reference year, at 00:00:00. -/
theorem c36_us_holidays (rt : Rt) (hrt : rt.Benign) (g : Globals) (ref : PTime) (t : DateTime) (ht : RefReads ref t) :
    ∀ p ∈ statutory, ∃ m d, p.2 t.year m d ∧
      Yields (execute rt holidayParser g p.1 ref) p.1 (WholeDay t.year m d) := by
  obtain ⟨hc, -⟩ := refReads_us ht
  have hy := (Date.year_of_ymd ht.date).1
  have hy0 : (t.year : Int) ≠ 0 := by have := hc.1; omega
  intro p hp
  simp only [statutory, List.mem_cons, List.not_mem_nil, or_false] at hp
  rcases hp with rfl | rfl | rfl | rfl | rfl | rfl | rfl | rfl | rfl | rfl
  · obtain ⟨mt, hf, hg⟩ := foundAt0 (r := Ast.holiday) (phrase := txt!"independence day")
      [(0, txt!"independence day")] (by decide +kernel)
    refine ⟨7, 4, ⟨rfl, rfl⟩, holiday_fixed hrt g (y := t.year) hy0 (by decide) hf (hg _ List.mem_cons_self) ?_ (fixed_whole (m := 7) (d := 4))⟩
    unfold holidayDate
    rw [hy]
    simp only [Out.bind_ok]
    rw [if_pos (by decide)]
    rfl
  · obtain ⟨mt, hf, hg⟩ := foundAt0 (r := Ast.holiday) (phrase := txt!"new year's day")
      [(0, txt!"new year's day")] (by decide +kernel)
    refine ⟨1, 1, ⟨rfl, rfl⟩, holiday_fixed hrt g (y := t.year) hy0 (by decide) hf (hg _ List.mem_cons_self) ?_ (fixed_whole (m := 1) (d := 1))⟩
    unfold holidayDate
    rw [hy]
    simp only [Out.bind_ok]
    rw [if_neg (by decide), if_pos (by decide), if_neg (by decide)]
    rfl
  · obtain ⟨mt, hf, hg⟩ := foundAt0 (r := Ast.holiday) (phrase := txt!"veterans day")
      [(0, txt!"veterans day")] (by decide +kernel)
    refine ⟨11, 11, ⟨rfl, rfl⟩, holiday_fixed hrt g (y := t.year) hy0 (by decide) hf (hg _ List.mem_cons_self) ?_ (fixed_whole (m := 11) (d := 11))⟩
    unfold holidayDate
    rw [hy]
    simp only [Out.bind_ok]
    rw [if_neg (by decide), if_neg (by decide), if_pos (by decide)]
    rfl
  · obtain ⟨mt, hf, hg⟩ := foundAt0 (r := Ast.holiday) (phrase := txt!"mlk day")
      [(0, txt!"mlk day")] (by decide +kernel)
    obtain ⟨d, D, h1, h2, h3⟩ := nth_ymd (n := 3) (w := 1) (m := 1) (by decide) (by decide) (by decide) hc.1 hc.2.1 (by decide) (by decide)
    refine ⟨1, d, ⟨rfl, h1⟩, yields_mono (fun r hr => day_whole hr) (holiday_day hrt g (k := 0) h3 (by decide) hf (hg _ List.mem_cons_self) ?_)⟩
    unfold holidayDate
    rw [hy]
    simp only [Out.bind_ok]
    rw [if_neg (by decide), if_neg (by decide), if_neg (by decide), if_neg (by decide), if_pos (by decide), h2]
    rfl
  · obtain ⟨mt, hf, hg⟩ := foundAt0 (r := Ast.holiday) (phrase := txt!"martin luther king jr day")
      [(0, txt!"martin luther king jr day")] (by decide +kernel)
    obtain ⟨d, D, h1, h2, h3⟩ := nth_ymd (n := 3) (w := 1) (m := 1) (by decide) (by decide) (by decide) hc.1 hc.2.1 (by decide) (by decide)
    refine ⟨1, d, ⟨rfl, h1⟩, yields_mono (fun r hr => day_whole hr) (holiday_day hrt g (k := 0) h3 (by decide) hf (hg _ List.mem_cons_self) ?_)⟩
    unfold holidayDate
    rw [hy]
    simp only [Out.bind_ok]
    rw [if_neg (by decide), if_neg (by decide), if_neg (by decide), if_neg (by decide), if_pos (by decide), h2]
    rfl
  · obtain ⟨mt, hf, hg⟩ := foundAt0 (r := Ast.holiday) (phrase := txt!"president's day")
      [(0, txt!"president's day")] (by decide +kernel)
    obtain ⟨d, D, h1, h2, h3⟩ := nth_ymd (n := 3) (w := 1) (m := 2) (by decide) (by decide) (by decide) hc.1 hc.2.1 (by decide) (by decide)
    refine ⟨2, d, ⟨rfl, h1⟩, yields_mono (fun r hr => day_whole hr) (holiday_day hrt g (k := 0) h3 (by decide) hf (hg _ List.mem_cons_self) ?_)⟩
    unfold holidayDate
    rw [hy]
    simp only [Out.bind_ok]
    rw [if_neg (by decide), if_neg (by decide), if_neg (by decide), if_neg (by decide), if_neg (by decide), if_neg (by decide), if_pos (by decide), h2]
    rfl
  · obtain ⟨mt, hf, hg⟩ := foundAt0 (r := Ast.holiday) (phrase := txt!"memorial day")
      [(0, txt!"memorial day")] (by decide +kernel)
    obtain ⟨d, D, h1, h2, h3⟩ := last_ymd (w := 1) (m := 5) (by decide) hc.1 hc.2.1 (by decide) (by decide)
    refine ⟨5, d, ⟨rfl, h1⟩, yields_mono (fun r hr => day_whole hr) (holiday_day hrt g (k := 0) h3 (by decide) hf (hg _ List.mem_cons_self) ?_)⟩
    unfold holidayDate
    rw [hy]
    simp only [Out.bind_ok]
    rw [if_neg (by decide), if_neg (by decide), if_neg (by decide), if_neg (by decide), if_neg (by decide), if_neg (by decide),
      if_neg (by decide), if_neg (by decide), if_neg (by decide), if_pos (by decide), h2]
    rfl
  · obtain ⟨mt, hf, hg⟩ := foundAt0 (r := Ast.holiday) (phrase := txt!"labor day")
      [(0, txt!"labor day")] (by decide +kernel)
    obtain ⟨d, D, h1, h2, h3⟩ := nth_ymd (n := 1) (w := 1) (m := 9) (by decide) (by decide) (by decide) hc.1 hc.2.1 (by decide) (by decide)
    refine ⟨9, d, ⟨rfl, h1⟩, yields_mono (fun r hr => day_whole hr) (holiday_day hrt g (k := 0) h3 (by decide) hf (hg _ List.mem_cons_self) ?_)⟩
    unfold holidayDate
    rw [hy]
    simp only [Out.bind_ok]
    rw [if_neg (by decide), if_neg (by decide), if_neg (by decide), if_neg (by decide), if_neg (by decide), if_pos (by decide), h2]
    rfl
  · obtain ⟨mt, hf, hg⟩ := foundAt0 (r := Ast.holiday) (phrase := txt!"columbus day")
      [(0, txt!"columbus day")] (by decide +kernel)
    obtain ⟨d, D, h1, h2, h3⟩ := nth_ymd (n := 2) (w := 1) (m := 10) (by decide) (by decide) (by decide) hc.1 hc.2.1 (by decide) (by decide)
    refine ⟨10, d, ⟨rfl, h1⟩, yields_mono (fun r hr => day_whole hr) (holiday_day hrt g (k := 0) h3 (by decide) hf (hg _ List.mem_cons_self) ?_)⟩
    unfold holidayDate
    rw [hy]
    simp only [Out.bind_ok]
    rw [if_neg (by decide), if_neg (by decide), if_neg (by decide), if_neg (by decide), if_neg (by decide), if_neg (by decide),
      if_neg (by decide), if_neg (by decide), if_neg (by decide), if_neg (by decide), if_pos (by decide), h2]
    rfl
  · obtain ⟨mt, hf, hg⟩ := foundAt0 (r := Ast.holiday) (phrase := txt!"thanksgiving day")
      [(0, txt!"thanksgiving day")] (by decide +kernel)
    obtain ⟨d, D, h1, h2, h3⟩ := nth_ymd (n := 4) (w := 4) (m := 11) (by decide) (by decide) (by decide) hc.1 hc.2.1 (by decide) (by decide)
    refine ⟨11, d, ⟨rfl, h1⟩, yields_mono (fun r hr => day_whole hr) (holiday_day hrt g (k := 0) h3 (by decide) hf (hg _ List.mem_cons_self) ?_)⟩
    unfold holidayDate
    rw [hy]
    simp only [Out.bind_ok]
    rw [if_neg (by decide), if_neg (by decide), if_neg (by decide), if_neg (by decide), if_neg (by decide), if_neg (by decide),
      if_neg (by decide), if_pos (by decide), h2]
    rfl

end Chrono.Props
