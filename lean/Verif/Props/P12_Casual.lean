import Verif.Lemmas.Phrase
import Verif.Lemmas.Shift
/-!
# C21, C22: casual dates and times
-/
namespace Chrono.Props
open Chrono Chrono.Spec Chrono.Boost

/-! ## C21 -/

theorem casual_yields {rt : Rt} (hrt : rt.Benign) (g : Globals) {ref tmp : PTime} {t' : DateTime} {phrase text : Text}
    {mt : Match} {b : Bool} {f : Comps → Comps} (hl : toLower phrase = phrase) (hf : FoundAt0 Ast.casualDate phrase mt)
    (ht : mt.str 0 = text) (hs : searches true Pat.lastNight text = .ok b)
    (hd : casualDay (PResult.mk' ref 0 text) text ref b = ((PResult.mk' ref 0 text).onStart f, tmp)) (hr : RefReads tmp t') :
    Yields (execute rt casualDateParser g phrase ref) text fun r =>
      DateIs r.startDate t'.date ∧ r.hasEnd = false ∧
        (∀ k, k ≠ .year → k ≠ .month → k ≠ .mday → r.startDate.get k = (f Comps.empty).get k) := by
  obtain ⟨h1, h2, h3, -⟩ := Date.year_of_ymd hr.date
  have hy : (t'.year : Int) ≠ 0 := by have := hr.valid.1.1; omega
  refine yields_of hrt casualDate_pattern casualDate_min hl hf (pureExtract_ok (r := (((PResult.mk' ref 0 text).onStart f).onStart
    (fun c => ((c.set .year t'.year).set .month t'.month).set .mday t'.day)).setTag .casualDate) ?_) ?_ ?_ ?_ ?_
  · unfold casualDateExtract
    simp only [ht]
    rw [hs, Out.bind_ok, hd]
    simp only []
    rw [h1, h2, h3]
    rfl
  · refine hasPossibleDates_of_year ?_
    simpa using hy
  · simp
  · simp
  · refine ⟨by simp [DateIs, DateTime.date], by simp, ?_⟩
    intro k k1 k2 k3
    simp [k1, k2, k3]

/-- The tactic for a phrase: evaluate the search and the case distinction. -/
macro "casual_cases" : tactic => `(tactic| (unfold casualDay; repeat (first | rw [if_pos (by decide)] | rw [if_neg (by decide)])))

/-- **C21 (reference day).** For every reference time, `today`, `tonight` and `now` denote the reference date, at
00:00:00, at 22:00:00, and at the reference time. -/
theorem c21_today_tonight_now (rt : Rt) (hrt : rt.Benign) (g : Globals) (ref : PTime) (t : DateTime) (ht : RefReads ref t) :
    Yields (execute rt casualDateParser g txt!"today" ref) txt!"today"
      (fun r => DateIs r.startDate t.date ∧ TimeIs r.startDate 0 0 0 ∧ r.hasEnd = false) ∧
    Yields (execute rt casualDateParser g txt!"tonight" ref) txt!"tonight"
      (fun r => DateIs r.startDate t.date ∧ TimeIs r.startDate 22 0 0 ∧ r.hasEnd = false) ∧
    Yields (execute rt casualDateParser g txt!"now" ref) txt!"now"
      (fun r => DateIs r.startDate t.date ∧ TimeIs r.startDate t.hour t.minute t.second ∧ r.hasEnd = false) := by
  refine ⟨?_, ?_, ?_⟩
  · obtain ⟨mt, hf, hg⟩ := foundAt0 (r := Ast.casualDate) (phrase := txt!"today") [(0, txt!"today")] (by decide +kernel)
    refine yields_mono ?_ (casual_yields hrt g (f := id) (tmp := ref) (b := false) (by decide) hf (hg _ List.mem_cons_self)
      (by decide +kernel) (by casual_cases <;> rfl) ht)
    rintro r ⟨h1, h2, h3⟩
    exact ⟨h1, by unfold TimeIs; rw [h3 _ (by decide) (by decide) (by decide), h3 _ (by decide) (by decide) (by decide),
      h3 _ (by decide) (by decide) (by decide)]; simp, h2⟩
  · obtain ⟨mt, hf, hg⟩ := foundAt0 (r := Ast.casualDate) (phrase := txt!"tonight") [(0, txt!"tonight")] (by decide +kernel)
    refine yields_mono ?_ (casual_yields hrt g (f := (·.imply .hour 22)) (tmp := ref) (b := false) (by decide) hf (hg _ List.mem_cons_self)
      (by decide +kernel) (by casual_cases <;> rfl) ht)
    rintro r ⟨h1, h2, h3⟩
    exact ⟨h1, by unfold TimeIs; rw [h3 _ (by decide) (by decide) (by decide), h3 _ (by decide) (by decide) (by decide),
      h3 _ (by decide) (by decide) (by decide)]; simp [get_imply], h2⟩
  · obtain ⟨mt, hf, hg⟩ := foundAt0 (r := Ast.casualDate) (phrase := txt!"now") [(0, txt!"now")] (by decide +kernel)
    refine yields_mono ?_ (casual_yields hrt g (f := fun c => ((c.set .hour ref.hours).set .min ref.minutes).set .sec ref.seconds)
      (tmp := ref) (b := false) (by decide) hf (hg _ List.mem_cons_self)
      (by decide +kernel) (by casual_cases <;> rfl) ht)
    rintro r ⟨h1, h2, h3⟩
    exact ⟨h1, by unfold TimeIs; rw [h3 _ (by decide) (by decide) (by decide), h3 _ (by decide) (by decide) (by decide),
      h3 _ (by decide) (by decide) (by decide)]; simp [ht.hours, ht.minutes, ht.seconds], h2⟩

/-- **C21 (next day).** For every reference time, `tomorrow` and `tmr` denote the next calendar day at 00:00:00,
or, when the reference hour is 0, the reference date itself. -/
theorem c21_tomorrow (rt : Rt) (hrt : rt.Benign) (g : Globals) (ref : PTime) (t : DateTime) (ht : RefReads ref t)
    (y m d : Nat) (hn : nextDay t.date = (y, m, d)) (hy : t.hour > 0 → y ≤ 9999) :
    ∀ phrase ∈ [txt!"tomorrow", txt!"tmr"],
    Yields (execute rt casualDateParser g phrase ref) phrase
      (fun r => DateIs r.startDate (if t.hour = 0 then t.date else (y, m, d)) ∧ TimeIs r.startDate 0 0 0 ∧ r.hasEnd = false) := by
  have hh := ht.hours
  have hr : RefReads (if ref.hours > 0 then ref.addDays 1 else ref)
      (t.onDate (if t.hour = 0 then t.date else (y, m, d))) := by
    by_cases h0 : t.hour = 0
    · rw [if_neg (by rw [hh]; omega), if_pos h0]; exact ht
    · rw [if_pos (by rw [hh]; omega), if_neg h0]
      have hc := ht.valid.1
      obtain ⟨a, b, c⟩ := daysLater_civil 1 (Nat.le_trans (by decide) hc.1) hc.2.2
      have e : daysLater 1 t.date = (y, m, d) := hn
      unfold DateTime.date at e
      rw [e] at a b c
      have := ht.daysLater 1 (by
        unfold DateTime.date; rw [e]; exact ⟨Nat.le_trans hc.1 b, hy (by omega), a⟩)
      unfold DateTime.date at this
      rw [e] at this
      exact this
  intro phrase hp
  simp only [List.mem_cons, List.not_mem_nil, or_false] at hp
  have fin : ∀ r : PResult, (DateIs r.startDate (t.onDate (if t.hour = 0 then t.date else (y, m, d))).date ∧ r.hasEnd = false ∧
      (∀ k, k ≠ .year → k ≠ .month → k ≠ .mday → r.startDate.get k = (id Comps.empty).get k)) →
      DateIs r.startDate (if t.hour = 0 then t.date else (y, m, d)) ∧ TimeIs r.startDate 0 0 0 ∧ r.hasEnd = false := by
    rintro r ⟨h1, h2, h3⟩
    exact ⟨h1, by unfold TimeIs; rw [h3 _ (by decide) (by decide) (by decide), h3 _ (by decide) (by decide) (by decide),
      h3 _ (by decide) (by decide) (by decide)]; simp, h2⟩
  rcases hp with rfl | rfl
  · obtain ⟨mt, hf, hg⟩ := foundAt0 (r := Ast.casualDate) (phrase := txt!"tomorrow") [(0, txt!"tomorrow")] (by decide +kernel)
    exact yields_mono fin (casual_yields hrt g (f := id) (b := false) (by decide) hf (hg _ List.mem_cons_self)
      (by decide +kernel) (by casual_cases <;> rfl) hr)
  · obtain ⟨mt, hf, hg⟩ := foundAt0 (r := Ast.casualDate) (phrase := txt!"tmr") [(0, txt!"tmr")] (by decide +kernel)
    exact yields_mono fin (casual_yields hrt g (f := id) (b := false) (by decide) hf (hg _ List.mem_cons_self)
      (by decide +kernel) (by casual_cases <;> rfl) hr)

/-- **C21 (previous day).** For every reference time, `yesterday` denotes the calendar day whose next day is the
reference date, at the reference hour; `last night` denotes that day when the reference hour is above 6 and the
reference date otherwise, at 00:00:00. -/
theorem c21_yesterday_last_night (rt : Rt) (hrt : rt.Benign) (g : Globals) (ref : PTime) (t : DateTime) (ht : RefReads ref t)
    (y m d : Nat) (hc : CivilInRange y m d) (hn : nextDay (y, m, d) = t.date) :
    Yields (execute rt casualDateParser g txt!"yesterday" ref) txt!"yesterday"
      (fun r => DateIs r.startDate (y, m, d) ∧ TimeIs r.startDate t.hour 0 0 ∧ r.hasEnd = false) ∧
    Yields (execute rt casualDateParser g txt!"last night" ref) txt!"last night"
      (fun r => DateIs r.startDate (if 6 < t.hour then (y, m, d) else t.date) ∧ TimeIs r.startDate 0 0 0 ∧ r.hasEnd = false) := by
  have hh := ht.hours
  have hr : RefReads (ref.addDays (-1)) (t.onDate (y, m, d)) := ht.daysEarlier 1 hc hn
  have hr2 : RefReads (if ref.hours > 6 then ref.addDays (-1) else ref)
      (t.onDate (if 6 < t.hour then (y, m, d) else t.date)) := by
    by_cases h0 : 6 < t.hour
    · rw [if_pos (by rw [hh]; omega), if_pos h0]; exact hr
    · rw [if_neg (by rw [hh]; omega), if_neg h0]; exact ht
  refine ⟨?_, ?_⟩
  · obtain ⟨mt, hf, hg⟩ := foundAt0 (r := Ast.casualDate) (phrase := txt!"yesterday") [(0, txt!"yesterday")] (by decide +kernel)
    refine yields_mono ?_ (casual_yields hrt g (f := (·.imply .hour ref.hours)) (b := false) (by decide) hf (hg _ List.mem_cons_self)
      (by decide +kernel) (by casual_cases <;> rfl) hr)
    rintro r ⟨h1, h2, h3⟩
    exact ⟨h1, by unfold TimeIs; rw [h3 _ (by decide) (by decide) (by decide), h3 _ (by decide) (by decide) (by decide),
      h3 _ (by decide) (by decide) (by decide)]; simp [get_imply, hh], h2⟩
  · obtain ⟨mt, hf, hg⟩ := foundAt0 (r := Ast.casualDate) (phrase := txt!"last night") [(0, txt!"last night")] (by decide +kernel)
    refine yields_mono ?_ (casual_yields hrt g (f := (·.imply .hour 0)) (b := true) (by decide) hf (hg _ List.mem_cons_self)
      (by decide +kernel) (by casual_cases <;> rfl) hr2)
    rintro r ⟨h1, h2, h3⟩
    exact ⟨h1, by unfold TimeIs; rw [h3 _ (by decide) (by decide) (by decide), h3 _ (by decide) (by decide) (by decide),
      h3 _ (by decide) (by decide) (by decide)]; simp [get_imply], h2⟩

/-- The hypotheses are met: 1 March of a leap year has a predecessor, 31 December a successor. -/
example : CivilInRange 2020 2 29 ∧ nextDay (2020, 2, 29) = (2020, 3, 1) ∧ nextDay (2019, 12, 31) = (2020, 1, 1) := by decide

/-! ## C22 -/

/-- The words and their hours. -/
def dayParts : List (Text × Nat) :=
  [(txt!"morning", 6), (txt!"noon", 12), (txt!"afternoon", 15), (txt!"evening", 20), (txt!"night", 20),
   (txt!"this morning", 6), (txt!"this noon", 12), (txt!"this afternoon", 15), (txt!"this evening", 20),
   (txt!"this night", 20)]

theorem casualTime_yields {rt : Rt} (hrt : rt.Benign) (g : Globals) {ref : PTime} {t : DateTime} {phrase w : Text}
    {mt : Match} (h : Nat) (hl : toLower phrase = phrase) (hf : FoundAt0 Ast.casualTime phrase mt)
    (hg : mt.str 0 = phrase ∧ mt.str 4 = w) (hw : (w, h) ∈ dayParts.take 5) (ht : RefReads ref t) :
    Yields (execute rt casualTimeParser g phrase ref) phrase fun r =>
      DateIs r.startDate t.date ∧ TimeIs r.startDate h t.minute 0 ∧ r.hasEnd = false ∧
        ∀ k, r.startDate.certain k = false := by
  obtain ⟨h1, h2, h3, h4⟩ := Date.year_of_ymd ht.date
  have hy : (t.year : Int) ≠ 0 := by have := ht.valid.1.1; omega
  have hm := ht.minutes
  refine yields_of hrt casualTime_pattern casualTime_min hl hf (pureExtract_ok (r := (((PResult.mk' ref 0 phrase).onStart
    (·.imply .hour h)).onStart (fun c =>
    ((((c.imply .year t.year).imply .month t.month).imply .mday t.day).imply .wday
      (dayOfWeekYmd t.year t.month t.day : Nat)).imply .min ref.minutes)).setTag .casualTime) ?_) ?_ ?_ ?_ ?_
  · have hne : ¬ (mt.str 4).isEmpty = true := by
      rw [hg.2]
      simp only [dayParts, List.take_succ_cons, List.take_zero, List.mem_cons, List.not_mem_nil, or_false, Prod.mk.injEq] at hw
      rcases hw with ⟨rfl, rfl⟩ | ⟨rfl, rfl⟩ | ⟨rfl, rfl⟩ | ⟨rfl, rfl⟩ | ⟨rfl, rfl⟩ <;> decide
    have hs : mt.str (if (mt.str 4).isEmpty = true then 3 else 4) = w := by rw [if_neg hne]; exact hg.2
    unfold casualTimeExtract
    simp only [hs, hg.1, h1, h2, h3, h4, Out.bind_ok, Out.pure_eq]
    simp only [dayParts, List.take_succ_cons, List.take_zero, List.mem_cons, List.not_mem_nil, or_false, Prod.mk.injEq] at hw
    rcases hw with ⟨rfl, rfl⟩ | ⟨rfl, rfl⟩ | ⟨rfl, rfl⟩ | ⟨rfl, rfl⟩ | ⟨rfl, rfl⟩ <;>
    · repeat (first | rw [if_pos (by decide)] | rw [if_neg (by decide)])
      rfl
  · refine hasPossibleDates_of_year ?_
    simpa [get_imply] using hy
  · simp
  · simp
  · refine ⟨by simp [DateIs, DateTime.date, get_imply], by simp [TimeIs, get_imply, hm], by simp, ?_⟩
    intro k
    unfold Comps.certain
    simp

/-- **C22.** For every reference time the ten phrases yield exactly one result: the reference date, the hour of the
table, the reference minute and second 0, nothing marked certain. -/
theorem c22_parts_of_the_day (rt : Rt) (hrt : rt.Benign) (g : Globals) (ref : PTime) (t : DateTime) (ht : RefReads ref t) :
    ∀ p ∈ dayParts, Yields (execute rt casualTimeParser g p.1 ref) p.1 fun r =>
      DateIs r.startDate t.date ∧ TimeIs r.startDate p.2 t.minute 0 ∧ r.hasEnd = false ∧
        ∀ k, r.startDate.certain k = false := by
  intro p hp
  simp only [dayParts, List.mem_cons, List.not_mem_nil, or_false] at hp
  rcases hp with rfl | rfl | rfl | rfl | rfl | rfl | rfl | rfl | rfl | rfl
  · obtain ⟨mt, hf, hg⟩ := foundAt0 (r := Ast.casualTime) (phrase := txt!"morning") [(0, txt!"morning"), (4, txt!"morning")] (by decide +kernel)
    exact casualTime_yields hrt g 6 (by decide) hf ⟨hg _ List.mem_cons_self, hg _ (List.mem_cons_of_mem _ List.mem_cons_self)⟩ (by simp [dayParts]) ht
  · obtain ⟨mt, hf, hg⟩ := foundAt0 (r := Ast.casualTime) (phrase := txt!"noon") [(0, txt!"noon"), (4, txt!"noon")] (by decide +kernel)
    exact casualTime_yields hrt g 12 (by decide) hf ⟨hg _ List.mem_cons_self, hg _ (List.mem_cons_of_mem _ List.mem_cons_self)⟩ (by simp [dayParts]) ht
  · obtain ⟨mt, hf, hg⟩ := foundAt0 (r := Ast.casualTime) (phrase := txt!"afternoon") [(0, txt!"afternoon"), (4, txt!"afternoon")] (by decide +kernel)
    exact casualTime_yields hrt g 15 (by decide) hf ⟨hg _ List.mem_cons_self, hg _ (List.mem_cons_of_mem _ List.mem_cons_self)⟩ (by simp [dayParts]) ht
  · obtain ⟨mt, hf, hg⟩ := foundAt0 (r := Ast.casualTime) (phrase := txt!"evening") [(0, txt!"evening"), (4, txt!"evening")] (by decide +kernel)
    exact casualTime_yields hrt g 20 (by decide) hf ⟨hg _ List.mem_cons_self, hg _ (List.mem_cons_of_mem _ List.mem_cons_self)⟩ (by simp [dayParts]) ht
  · obtain ⟨mt, hf, hg⟩ := foundAt0 (r := Ast.casualTime) (phrase := txt!"night") [(0, txt!"night"), (4, txt!"night")] (by decide +kernel)
    exact casualTime_yields hrt g 20 (by decide) hf ⟨hg _ List.mem_cons_self, hg _ (List.mem_cons_of_mem _ List.mem_cons_self)⟩ (by simp [dayParts]) ht
  · obtain ⟨mt, hf, hg⟩ := foundAt0 (r := Ast.casualTime) (phrase := txt!"this morning") [(0, txt!"this morning"), (4, txt!"morning")] (by decide +kernel)
    exact casualTime_yields hrt g 6 (by decide) hf ⟨hg _ List.mem_cons_self, hg _ (List.mem_cons_of_mem _ List.mem_cons_self)⟩ (by simp [dayParts]) ht
  · obtain ⟨mt, hf, hg⟩ := foundAt0 (r := Ast.casualTime) (phrase := txt!"this noon") [(0, txt!"this noon"), (4, txt!"noon")] (by decide +kernel)
    exact casualTime_yields hrt g 12 (by decide) hf ⟨hg _ List.mem_cons_self, hg _ (List.mem_cons_of_mem _ List.mem_cons_self)⟩ (by simp [dayParts]) ht
  · obtain ⟨mt, hf, hg⟩ := foundAt0 (r := Ast.casualTime) (phrase := txt!"this afternoon") [(0, txt!"this afternoon"), (4, txt!"afternoon")] (by decide +kernel)
    exact casualTime_yields hrt g 15 (by decide) hf ⟨hg _ List.mem_cons_self, hg _ (List.mem_cons_of_mem _ List.mem_cons_self)⟩ (by simp [dayParts]) ht
  · obtain ⟨mt, hf, hg⟩ := foundAt0 (r := Ast.casualTime) (phrase := txt!"this evening") [(0, txt!"this evening"), (4, txt!"evening")] (by decide +kernel)
    exact casualTime_yields hrt g 20 (by decide) hf ⟨hg _ List.mem_cons_self, hg _ (List.mem_cons_of_mem _ List.mem_cons_self)⟩ (by simp [dayParts]) ht
  · obtain ⟨mt, hf, hg⟩ := foundAt0 (r := Ast.casualTime) (phrase := txt!"this night") [(0, txt!"this night"), (4, txt!"night")] (by decide +kernel)
    exact casualTime_yields hrt g 20 (by decide) hf ⟨hg _ List.mem_cons_self, hg _ (List.mem_cons_of_mem _ List.mem_cons_self)⟩ (by simp [dayParts]) ht

end Chrono.Props
