import Verif.Props.P10_Holidays
import Verif.Lemmas.Dfa
/-!
# C19, C37: black friday and christmas
-/
namespace Chrono.Props
open Chrono Chrono.Spec Chrono.Boost

/-! ## C37 -/

/-- `k` days later in the same month is `k` weekdays later. -/
theorem weekday_add (y m d k : Nat) : weekday y m (d + k) = (weekday y m d + k) % 7 := by
  unfold weekday ordinal
  generalize daysBeforeYear y = A
  generalize daysBeforeMonth y m = B
  omega

theorem addDays_one {D : Date} {y m d : Nat} (h : D.ymd = .ok ⟨y, m, d⟩) (hm1 : 1 ≤ m) (hm2 : m ≤ 12) (hd : 1 ≤ d) :
    D.addDays 1 = .ok ⟨dayNumber y m (d + 1)⟩ := by
  have hD := (Date.of_ymd h).2
  have hr := Date.inRange_of_civil (Date.of_ymd h).1
  have hn := dayNumber_add (y := y) (m := m) (d := d) (k := 1) hm1 hm2 hd
  rw [hn, hD]
  generalize dayNumber y m d = K at hr
  rw [Date.addDays_small hr (by decide) (by decide)]
  simp

theorem nov_day {y d : Nat} (h1 : 1400 ≤ y) (h2 : y ≤ 9999) (hd : 1 ≤ d) (hd' : d ≤ 30) : CivilInRange y 11 d :=
  ⟨h1, h2, by decide, by decide, hd, by simpa [monthLength] using hd'⟩

theorem black_shape {r : PResult} {y d : Nat} (h : r.startDate.get .year = y ∧ r.startDate.get .month = ((11 : Nat) : Int) ∧
    r.startDate.get .mday = ((d + 1 : Nat) : Int) + 1 ∧
      r.startDate.get .wday = ((5 : Nat) : Int) + 1 ∧ TimeIs r.startDate 0 0 0 ∧ r.hasEnd = false) :
    WholeDay y 11 (d + 2) r ∧ r.startDate.get .wday = 6 := by
  obtain ⟨r1, r2, r3, r4, r5, r6⟩ := h
  exact ⟨⟨⟨r1, r2, by rw [r3]; simp [Int.add_assoc]⟩, r5, r6⟩, by rw [r4]; rfl⟩

theorem fourth_thursday_le {y d : Nat} (h : IsNthWeekday 4 4 y 11 d) : 1 ≤ d ∧ d ≤ 28 ∧ weekday y 11 d = 4 := by
  obtain ⟨-, hw, hd1, hd2⟩ := h
  exact ⟨by omega, by omega, hw⟩

theorem black_extract {ref : PTime} {D E : Date} {y : Int} (hy : ref.date.year = .ok y)
    (h2 : nthKday 4 4 11 y = .ok D) (ha : D.addDays 1 = .ok E) (p : PResult) :
    holidayDate p txt!"black friday " ref =
      setDay p E 1 := by
  unfold holidayDate
  rw [hy]
  simp only [Out.bind_ok]
  rw [if_neg (by decide), if_neg (by decide), if_neg (by decide), if_neg (by decide), if_neg (by decide), if_neg (by decide),
      if_neg (by decide), if_neg (by decide), if_pos (by decide)]
  rw [h2, Out.bind_ok, ha, Out.bind_ok]

/-- **C37 (what the code does).** For every reference time `black friday sale` yields one result, whose date is two
days after the fourth Thursday of November: the Saturday, not the Friday; the weekday component is 6. -/
theorem c37_black_friday_is_saturday_partial (rt : Rt) (hrt : rt.Benign) (g : Globals) (ref : PTime) (t : DateTime)
    (ht : RefReads ref t) :
    ∃ d, IsNthWeekday 4 4 t.year 11 d ∧ weekday t.year 11 (d + 2) = 6 ∧
      Yields (execute rt holidayParser g txt!"black friday sale" ref) txt!"black friday " fun r =>
        WholeDay t.year 11 (d + 2) r ∧ r.startDate.get .wday = 6 := by
  obtain ⟨hc, -⟩ := refReads_us ht
  have hy := (Date.year_of_ymd ht.date).1
  obtain ⟨d, D, h1, h2, h3⟩ := nth_ymd (n := 4) (w := 4) (m := 11) (by decide) (by decide) (by decide) hc.1 hc.2.1 (by decide) (by decide)
  obtain ⟨mt, hf, hg⟩ := foundAt0 (r := Ast.holiday) (phrase := txt!"black friday sale")
      [(0, txt!"black friday ")] (by decide +kernel)
  obtain ⟨hd1, hd2, hw⟩ := fourth_thursday_le h1
  have w1 : weekday t.year 11 (d + 1) = 5 := by rw [weekday_add, hw]
  have w2 : weekday t.year 11 (d + 2) = 6 := by rw [weekday_add, hw]
  have hc1 : CivilInRange t.year 11 (d + 1) := nov_day hc.1 hc.2.1 (by omega) (by omega)
  have hx := black_extract hy h2 (addDays_one h3 (by decide) (by decide) hd1) (PResult.mk' ref 0 txt!"black friday ")
  refine ⟨d, h1, w2, yields_mono ?_ (holiday_day hrt g (k := 1) (Date.ymd_of_civil hc1) (by decide) hf (hg _ List.mem_cons_self) hx)⟩
  intro r hr
  rw [w1] at hr
  exact black_shape hr

/-- **C37 (negation).** It is not true that black friday is the day after the fourth Thursday of November: it is so
in no year. -/
theorem c37_black_friday_refuted (rt : Rt) (hrt : rt.Benign) (g : Globals) (ref : PTime) (t : DateTime)
    (ht : RefReads ref t) (d : Nat) (hd : IsNthWeekday 4 4 t.year 11 d) :
    ¬ Yields (execute rt holidayParser g txt!"black friday sale" ref) txt!"black friday " (WholeDay t.year 11 (d + 1)) := by
  obtain ⟨d', h1, -, h3⟩ := c37_black_friday_is_saturday_partial rt hrt g ref t ht
  intro h
  obtain ⟨r, ⟨⟨-, -, hm⟩, -⟩, ⟨⟨-, -, hm'⟩, -⟩, -⟩ := yields_both h h3
  obtain ⟨a1, a2, a3⟩ := fourth_thursday_le hd
  obtain ⟨b1, b2, b3⟩ := fourth_thursday_le h1
  have e := hm.symm.trans hm'
  have e2 : d = d' + 1 := by
    simp only [] at e
    omega
  subst e2
  rw [weekday_add, b3] at a3
  simp at a3

/-! ## C19, and every result of the holiday parser on any text -/

theorem startsWith_prefix {t p : Text} (h : startsWith t p = true) : p <+: t := by
  induction p generalizing t with
  | nil => exact List.nil_prefix
  | cons d p ih =>
    cases t with
    | nil => simp [startsWith] at h
    | cons c t =>
      simp only [startsWith, Bool.and_eq_true, beq_iff_eq] at h
      rw [h.1]
      exact List.cons_prefix_cons.2 ⟨rfl, ih h.2⟩

theorem contains_infix {p t : Text} (h : contains p t = true) : p <:+: t := by
  unfold contains at h
  induction t with
  | nil =>
    unfold find at h
    split at h
    · rename_i hp; rw [List.isEmpty_iff.1 hp]; exact List.infix_rfl
    · simp at h
  | cons c t ih =>
    unfold find at h
    split at h
    · rename_i hp; exact (startsWith_prefix hp).isInfix
    · exact (ih (by simpa using h)).trans (List.suffix_cons c t).isInfix

/-- The words the holiday parser looks for, each with the day it then reports for year `y`. (Not what a calendar
says for black friday, see C37.) -/
def reported : List (Text × (Nat → Nat → Nat → Prop)) :=
  [(txt!"independence", fun _ m d => m = 7 ∧ d = 4),
   (txt!"new year", fun _ m d => m = 12 ∧ d = 31),
   (txt!"new year", fun _ m d => m = 1 ∧ d = 1),
   (txt!"veteran", fun _ m d => m = 11 ∧ d = 11),
   (txt!"christmas", fun _ m d => m = 12 ∧ (d = 24 ∨ d = 25)),
   (txt!"mlk", fun y m d => m = 1 ∧ IsNthWeekday 3 1 y m d),
   (txt!"martin luther king", fun y m d => m = 1 ∧ IsNthWeekday 3 1 y m d),
   (txt!"president", fun y m d => m = 2 ∧ IsNthWeekday 3 1 y m d),
   (txt!"memorial", fun y m d => m = 5 ∧ IsLastWeekday 1 y m d),
   (txt!"labor", fun y m d => m = 9 ∧ IsNthWeekday 1 1 y m d),
   (txt!"columbus", fun y m d => m = 10 ∧ IsNthWeekday 2 1 y m d),
   (txt!"thanksgiving", fun y m d => m = 11 ∧ IsNthWeekday 4 4 y m d),
   (txt!"black", fun y m d => m = 11 ∧ ∃ e, IsNthWeekday 4 4 y m e ∧ d = e + 2)]

/-- What `holidayDate` did to the date. -/
def Reported (y : Nat) (text : Text) (p r : PResult) : Prop :=
  r.hasEnd = p.hasEnd ∧ r.text = p.text ∧ r.index = p.index ∧ r.startDate.get .sec = p.startDate.get .sec ∧
    (r = p ∨ ∃ e ∈ reported, e.1 <:+: text ∧ ∃ m d, e.2 y m d ∧ DateIs r.startDate (y, m, d))

theorem reported_fixed {y : Nat} {text : Text} {p : PResult} {m d : Nat} (e : Text × (Nat → Nat → Nat → Prop))
    (he : e ∈ reported) (hc : contains e.1 text = true) (h : e.2 y m d) :
    Reported y text p (setFixed p y m d) := by
  refine ⟨by simp [setFixed], by simp [setFixed], by simp [setFixed], by simp [setFixed], .inr ⟨e, he, contains_infix hc, m, d, h, ?_⟩⟩
  simp [setFixed, DateIs]

theorem reported_day {y : Nat} {text : Text} {p r : PResult} {m d : Nat} {k : Nat} {D : Date} (e : Text × (Nat → Nat → Nat → Prop))
    (he : e ∈ reported) (hc : contains e.1 text = true) (h : e.2 y m (d + k)) (hD : D.ymd = .ok ⟨y, m, d⟩)
    (hr : setDay p D k = .ok r) : Reported y text p r := by
  obtain ⟨h1, h2, h3, h4⟩ := Date.year_of_ymd hD
  unfold setDay at hr
  rw [h1, h2, h3, h4] at hr
  simp only [Out.bind_ok, Out.pure_eq, Out.ok.injEq] at hr
  subst hr
  refine ⟨by simp, by simp, by simp, by simp, .inr ⟨e, he, contains_infix hc, m, d + k, h, ?_⟩⟩
  simp [DateIs]

theorem ite_ok {α : Type} {c : Prop} [Decidable c] {x y z : Out α} (h : (if c then x else y) = z) :
    (c ∧ x = z) ∨ (¬ c ∧ y = z) := by
  by_cases hc : c
  · exact .inl ⟨hc, by rw [if_pos hc] at h; exact h⟩
  · exact .inr ⟨hc, by rw [if_neg hc] at h; exact h⟩

theorem holidayDate_reported {ref : PTime} {y : Nat} (hy : ref.date.year = .ok (y : Int)) (hy1 : 1400 ≤ y) (hy2 : y ≤ 9999)
    {text : Text} {p r : PResult} (h : holidayDate p text ref = .ok r) : Reported y text p r := by
  unfold holidayDate at h
  rw [hy] at h
  simp only [Out.bind_ok] at h
  rcases ite_ok h with ⟨hc, h⟩ | ⟨-, h⟩
  · simp only [Out.pure_eq, Out.ok.injEq] at h; subst h
    exact reported_fixed (txt!"independence", fun _ m d => m = 7 ∧ d = 4) (by simp [reported]) hc (m := 7) (d := 4) ⟨rfl, rfl⟩
  rcases ite_ok h with ⟨hc, h⟩ | ⟨-, h⟩
  · rcases ite_ok h with ⟨-, h⟩ | ⟨-, h⟩
    · simp only [Out.pure_eq, Out.ok.injEq] at h; subst h
      exact reported_fixed (txt!"new year", fun _ m d => m = 12 ∧ d = 31) (by simp [reported]) hc (m := 12) (d := 31) ⟨rfl, rfl⟩
    · simp only [Out.pure_eq, Out.ok.injEq] at h; subst h
      exact reported_fixed (txt!"new year", fun _ m d => m = 1 ∧ d = 1) (by simp [reported]) hc (m := 1) (d := 1) ⟨rfl, rfl⟩
  rcases ite_ok h with ⟨hc, h⟩ | ⟨-, h⟩
  · simp only [Out.pure_eq, Out.ok.injEq] at h; subst h
    exact reported_fixed (txt!"veteran", fun _ m d => m = 11 ∧ d = 11) (by simp [reported]) hc (m := 11) (d := 11) ⟨rfl, rfl⟩
  rcases ite_ok h with ⟨hc, h⟩ | ⟨-, h⟩
  · rcases ite_ok h with ⟨-, h⟩ | ⟨-, h⟩
    · simp only [Out.pure_eq, Out.ok.injEq] at h; subst h
      exact reported_fixed (txt!"christmas", fun _ m d => m = 12 ∧ (d = 24 ∨ d = 25)) (by simp [reported]) hc (m := 12) (d := 24) ⟨rfl, .inl rfl⟩
    · simp only [Out.pure_eq, Out.ok.injEq] at h; subst h
      exact reported_fixed (txt!"christmas", fun _ m d => m = 12 ∧ (d = 24 ∨ d = 25)) (by simp [reported]) hc (m := 12) (d := 25) ⟨rfl, .inr rfl⟩
  rcases ite_ok h with ⟨hc, h⟩ | ⟨-, h⟩
  · obtain ⟨d, D, h1, h2, h3⟩ := nth_ymd (n := 3) (w := 1) (m := 1) (by decide) (by decide) (by decide) hy1 hy2 (by decide) (by decide)
    rw [h2, Out.bind_ok] at h
    rcases Bool.or_eq_true_iff.1 hc with hc | hc
    · exact reported_day (k := 0) (txt!"mlk", fun y m d => m = 1 ∧ IsNthWeekday 3 1 y m d) (by simp [reported]) hc ⟨rfl, h1⟩ h3 h
    · exact reported_day (k := 0) (txt!"martin luther king", fun y m d => m = 1 ∧ IsNthWeekday 3 1 y m d) (by simp [reported]) hc ⟨rfl, h1⟩ h3 h
  rcases ite_ok h with ⟨hc, h⟩ | ⟨-, h⟩
  · obtain ⟨d, D, h1, h2, h3⟩ := nth_ymd (n := 1) (w := 1) (m := 9) (by decide) (by decide) (by decide) hy1 hy2 (by decide) (by decide)
    rw [h2, Out.bind_ok] at h
    exact reported_day (k := 0) (txt!"labor", fun y m d => m = 9 ∧ IsNthWeekday 1 1 y m d) (by simp [reported]) hc ⟨rfl, h1⟩ h3 h
  rcases ite_ok h with ⟨hc, h⟩ | ⟨-, h⟩
  · obtain ⟨d, D, h1, h2, h3⟩ := nth_ymd (n := 3) (w := 1) (m := 2) (by decide) (by decide) (by decide) hy1 hy2 (by decide) (by decide)
    rw [h2, Out.bind_ok] at h
    exact reported_day (k := 0) (txt!"president", fun y m d => m = 2 ∧ IsNthWeekday 3 1 y m d) (by simp [reported]) hc ⟨rfl, h1⟩ h3 h
  rcases ite_ok h with ⟨hc, h⟩ | ⟨-, h⟩
  · obtain ⟨d, D, h1, h2, h3⟩ := nth_ymd (n := 4) (w := 4) (m := 11) (by decide) (by decide) (by decide) hy1 hy2 (by decide) (by decide)
    rw [h2, Out.bind_ok] at h
    exact reported_day (k := 0) (txt!"thanksgiving", fun y m d => m = 11 ∧ IsNthWeekday 4 4 y m d) (by simp [reported]) hc ⟨rfl, h1⟩ h3 h
  rcases ite_ok h with ⟨hc, h⟩ | ⟨-, h⟩
  · obtain ⟨d, D, h1, h2, h3⟩ := nth_ymd (n := 4) (w := 4) (m := 11) (by decide) (by decide) (by decide) hy1 hy2 (by decide) (by decide)
    obtain ⟨hd1, hd2, hw⟩ := fourth_thursday_le h1
    have hc1 : CivilInRange y 11 (d + 1) := nov_day hy1 hy2 (by omega) (by omega)
    rw [h2, Out.bind_ok, addDays_one h3 (by decide) (by decide) hd1, Out.bind_ok] at h
    exact reported_day (k := 1) (txt!"black", fun y m d => m = 11 ∧ ∃ e, IsNthWeekday 4 4 y m e ∧ d = e + 2) (by simp [reported]) hc
      ⟨rfl, d, h1, rfl⟩ (Date.ymd_of_civil hc1) h
  rcases ite_ok h with ⟨hc, h⟩ | ⟨-, h⟩
  · obtain ⟨d, D, h1, h2, h3⟩ := last_ymd (w := 1) (m := 5) (by decide) hy1 hy2 (by decide) (by decide)
    rw [h2, Out.bind_ok] at h
    exact reported_day (k := 0) (txt!"memorial", fun y m d => m = 5 ∧ IsLastWeekday 1 y m d) (by simp [reported]) hc ⟨rfl, h1⟩ h3 h
  rcases ite_ok h with ⟨hc, h⟩ | ⟨-, h⟩
  · obtain ⟨d, D, h1, h2, h3⟩ := nth_ymd (n := 2) (w := 1) (m := 10) (by decide) (by decide) (by decide) hy1 hy2 (by decide) (by decide)
    rw [h2, Out.bind_ok] at h
    exact reported_day (k := 0) (txt!"columbus", fun y m d => m = 10 ∧ IsNthWeekday 2 1 y m d) (by simp [reported]) hc ⟨rfl, h1⟩ h3 h
  · simp only [Out.pure_eq, Out.ok.injEq] at h; subst h
    exact ⟨rfl, rfl, rfl, rfl, .inl rfl⟩

/-- Every result of the holiday parser comes from a word of its pattern that occurs in the lower-cased text and
names a holiday. -/
theorem holiday_result {rt : Rt} (hrt : rt.Benign) {g g' : Globals} {text : Text} {ref : PTime} {t : DateTime} (ht : RefReads ref t)
    {rs : List PResult} (h : execute rt holidayParser g text ref = .ok (rs, g')) {r : PResult} (hr : r ∈ rs) :
    Lang Ast.holiday r.text ∧ (∀ c ∈ r.text, c ∈ toLower text) ∧
    ∃ e ∈ reported, e.1 <:+: r.text ∧ ∃ m d, e.2 t.year m d ∧ WholeDay t.year m d r := by
  obtain ⟨hc, -⟩ := refReads_us ht
  have hy := (Date.year_of_ymd ht.date).1
  obtain ⟨k, g1, g2, mt, res, -, hs, hx, hd, rfl⟩ := (execute_scan hrt holiday_pattern holiday_min g text ref).mem rs g' h r hr
  have ok := Re.search_ok hs
  have hx' : ∃ q, holidayDate (PResult.mk' ref (k + mt.start) (mt.str 0)) (mt.str 0) ref = .ok q ∧
      res = (q.onStart (fun c => (c.set .hour 0).set .min 0)).setTag .usHolidays := by
    unfold holidayParser pureExtract holidayExtract at hx
    obtain ⟨q, hq, hx⟩ := Out.bind_eq_ok.1 hx
    obtain ⟨q', hq', hq⟩ := Out.bind_eq_ok.1 hq
    simp only [Out.pure_eq, Out.ok.injEq, Prod.mk.injEq] at hq hx
    exact ⟨q', hq', by rw [← hx.1, ← hq]⟩
  obtain ⟨q, hq, rfl⟩ := hx'
  obtain ⟨h1, h2, h3, h4, h5⟩ := holidayDate_reported hy hc.1 hc.2.1 hq
  have htext : ((q.onStart (fun c => (c.set .hour 0).set .min 0)).setTag .usHolidays).copy.text = mt.str 0 := by
    simp [h2]
  rw [htext]
  refine ⟨ok.lang, ?_, ?_⟩
  · intro c hc
    unfold Match.str at hc
    rw [if_pos rfl, ok.subject] at hc
    exact List.mem_of_mem_drop (mem_slice hc)
  · rcases h5 with rfl | ⟨e, he, hi, m, d, hm, h5⟩
    · simp [PResult.hasPossibleDates, h1] at hd
    · refine ⟨e, he, hi, m, d, hm, ?_, ?_, ?_⟩
      · simpa [DateIs] using h5
      · simp [TimeIs, h4]
      · simp [h1]

/-- **C36 (every text).** Whatever the text, every result of the holiday parser contains one of the names above and
lies, at 00:00:00, on the day of that name in the reference year. -/
theorem c36_every_result_is_a_holiday (rt : Rt) (hrt : rt.Benign) (g : Globals) (text : Text) (ref : PTime) (t : DateTime)
    (ht : RefReads ref t) (rs : List PResult) (g' : Globals) (h : execute rt holidayParser g text ref = .ok (rs, g')) :
    ∀ r ∈ rs, ∃ e ∈ reported, e.1 <:+: r.text ∧ ∃ m d, e.2 t.year m d ∧ WholeDay t.year m d r :=
  fun _ hr => (holiday_result hrt ht h hr).2.2

/-- **C19 (what holds).** On a text without a backslash no result of the holiday parser is 24 or 25 December, nor
does its text contain `christmas`. -/
theorem c19_no_christmas_without_backslash_partial (rt : Rt) (hrt : rt.Benign) (g : Globals) (text : Text) (ref : PTime)
    (t : DateTime) (ht : RefReads ref t) (hb : 92 ∉ text) (rs : List PResult) (g' : Globals)
    (h : execute rt holidayParser g text ref = .ok (rs, g')) :
    ∀ r ∈ rs, ¬ txt!"christmas" <:+: r.text ∧
      ¬ (r.startDate.get .month = 12 ∧ (r.startDate.get .mday = 24 ∨ r.startDate.get .mday = 25)) := by
  intro r hr
  obtain ⟨hl, hm, e, he, hi, m, d, hd, ⟨-, hD2, hD3⟩, -⟩ := holiday_result hrt ht h hr
  have hlack : ¬ txt!"christmas" <:+: r.text :=
    hl.lacks txt!"christmas" 92 5 (by decide +kernel) (by decide +kernel) (fun hc => mem_toLower_backslash hb (hm _ hc))
  refine ⟨hlack, ?_⟩
  rintro ⟨e1, e2⟩
  rw [hD2] at e1
  rw [hD3] at e2
  have e1 : m = 12 := by simp only [] at e1; omega
  have e2 : d = 24 ∨ d = 25 := by simp only [] at e2; omega
  simp only [reported, List.mem_cons, List.not_mem_nil, or_false] at he
  rcases he with rfl | rfl | rfl | rfl | rfl | rfl | rfl | rfl | rfl | rfl | rfl | rfl | rfl <;>
    first
    | exact hlack hi
    | (have := hd.1; omega)
    | (have := hd.2; omega)

/-- **C19 (as claimed) is false**: `christmas day` yields nothing, for any reference time. -/
theorem c19_christmas_refuted (rt : Rt) (g : Globals) (ref : PTime) :
    execute rt holidayParser g txt!"christmas day" ref = .ok ([], g) ∧
    execute rt holidayParser g txt!"christmas" ref = .ok ([], g) :=
  ⟨execute_none holiday_pattern (by decide +kernel), execute_none holiday_pattern (by decide +kernel)⟩

/-- What it takes: `christmas\ day` is found. -/
example : (Ast.holiday.search txt! r"christmas\ day").isSome = true := by decide +kernel

end Chrono.Props
