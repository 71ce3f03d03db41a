import Verif.Props.P22_Deadline
import Verif.Props.P30_MonthPhrases
/-!
# C30, C31: month and day phrases; C64: month phrases end to end
-/
namespace Chrono.Props
open Chrono Chrono.Spec Chrono.Boost

/-! ## Month, day -/

/-- What the phrases below continue with: the parser needs a blank and a word after the day. -/
def dayTails : List Text := [txt!"at noon", txt!"in the office"]

/-- What may follow the digits of the day. -/
def dayMarks : List Text := [[], txt!"st", txt!"nd", txt!"rd", txt!"th"]

/-- Month, blank, day, mark, blank, tail. -/
def monthDay (w ds mark tail : Text) : Text := w ++ txt!" " ++ ds ++ mark ++ txt!" " ++ tail

/-- What the parser reports of it: the blank after the day is included. -/
def monthDayPart (w ds mark : Text) : Text := w ++ txt!" " ++ ds ++ mark ++ txt!" "

theorem middleEndian_blind : Ast.middleEndian.digitBlind = true := by decide +kernel

theorem monthDay_checks (tail : Text) (ht : tail ∈ dayTails) : monthConstants.all (fun p => dayMarks.all fun mk => [true, false].all fun short =>
    checkSpans Ast.middleEndian (monthDay p.1 (hourText short 11) mk tail) (p.1.length + 2 + (hourText short 11).length + mk.length)
      [(2, none), (3, some (0, p.1.length)), (5, some (p.1.length + 1, p.1.length + 1 + (hourText short 11).length)), (6, none), (8, none), (10, none)]) = true := by
  simp only [dayTails, List.mem_cons, List.not_mem_nil, or_false] at ht
  rcases ht with rfl | rfl <;> decide +kernel

theorem dr_monthDay (w : Text) (short : Bool) (d : Nat) (mk tail : Text) :
    List.Forall₂ DigitRel (monthDay w (hourText short d) mk tail) (monthDay w (hourText short 11) mk tail) :=
  dr_append (dr_append (dr_append (dr_append (dr_same _) (dr_hour short d)) (dr_same _)) (dr_same _)) (dr_same _)

/-- The year of a month and day: written, or the nearest; a result of the middle-endian parser on month `m` and day `d`. -/
theorem middleEndian_plain {rt : Rt} {g : Globals} {tx : Text} {mt : Match} {ref : PTime} {m d : Nat} {y : Int}
    (hm1 : 1 ≤ m) (hm2 : m ≤ 12) (hd1 : 1 ≤ d) (hd2 : d ≤ 31)
    (g3 : monthConstants.get (mt.str 3) = m) (hday : middleEndianDay mt = .ok (d : Int)) (g2 : mt.str 2 = []) (g6 : mt.str 6 = [])
    {yw : Int} (hy : middleEndianYear mt = .ok (some yw)) (hyy : (yw ≠ -1 ∧ yw = y) ∨ (yw = -1 ∧ nearestYear ref m d = .ok y)) :
    middleEndianExtract rt g tx mt ref 0 = .ok (((PResult.mk' ref 0 (mt.str 0)).onStart
      (fun c => ((c.set .mday d).set .month m).set .year y)).setTag .middleEndian) := by
  unfold middleEndianExtract
  simp only [g3, hday, Out.bind_ok, g2, hy]
  rw [if_neg (by omega)]
  unfold middleEndianRange
  rw [g6]
  have : (if yw ≠ -1 then pure yw else nearestYear ref (m : Int) (d : Int) : Out Int) = .ok y := by
    rcases hyy with ⟨h1, rfl⟩ | ⟨h1, h2⟩
    · rw [if_pos h1]; rfl
    · rw [if_neg (by simp [h1])]; exact h2
  rw [this]
  rfl

theorem hourText_length (short : Bool) (n : Nat) : (hourText short n).length = if short then 1 else 2 := by cases short <;> rfl

theorem stoi_hourText {short : Bool} {n : Nat} (h : n < if short then 10 else 100) : stoi (hourText short n) = .ok (n : Int) := by
  cases short
  · exact stoi_two (by simpa using h)
  · have hn : n < 10 := by simpa using h
    have : (List.range 10).all (fun n => match stoi (hourText true n) with | .ok v => v == (n : Int) | _ => false) = true := by decide +kernel
    have := List.all_eq_true.1 this n (List.mem_range.2 hn)
    split at this
    · rename_i h; rw [h, eq_of_beq this]
    · cases this

/-- **C30 (month and day).** For every spelling of a month (but `may.`), every day (one or two digits, `st`, `nd`, `rd`,
`th` or nothing after it) that exists in that month of the reference year, followed by a blank and another word: the parser
yields that month and day in the year that puts it nearest to the reference date. Missing: 29 February, and 28 February in
the year before a leap year (`c30_february_28_refuted`). -/
theorem c30_month_day_phrase_partial (rt : Rt) (hrt : rt.Benign) (g : Globals) (ref : PTime) (x : DateTime) (hx : RefReads ref x)
    (h1 : 1401 ≤ x.year) (h2 : x.year ≤ 9998) (w : Text) (m : Nat) (hw : monthWord w m = true) (hmay : w ≠ txt!"may.")
    (short : Bool) (d : Nat) (hshort : short = true → d < 10) (hc : Civil x.year m d) (h29 : m = 2 → d ≤ 28)
    (h28 : ¬ (m = 2 ∧ d = 28 ∧ Leap (x.year + 1)))
    (mk : Text) (hmk : mk ∈ dayMarks) (tail : Text) (ht : tail ∈ dayTails) :
    Yields (execute rt middleEndianParser g (monthDay w (hourText short d) mk tail) ref) (monthDayPart w (hourText short d) mk)
      (fun r => ∃ y, DateIs r.startDate (y, m, d) ∧ NearestYear x.date m d y ∧ TimeIs r.startDate 0 0 0 ∧ r.hasEnd = false) := by
  have hm := monthWord_mem hw hmay
  have hck := List.all_eq_true.1 (List.all_eq_true.1 (List.all_eq_true.1 (monthDay_checks tail ht) _ hm) mk hmk) short (by cases short <;> simp)
  obtain ⟨mt, hf, hst, h0, hg⟩ := foundSpans _ _ _ middleEndian_blind hck (dr_monthDay w short d mk tail)
  obtain ⟨gm, hl, -⟩ := monthConstants_get hm
  have hb := monthLength_bounds x.year m hc.1 hc.2.1
  have hd31 : d ≤ 31 := by have := hc.2.2.2; omega
  have hlen : (hourText short 11).length = (hourText short d).length := by rw [hourText_length, hourText_length]
  rw [hlen] at hg hst h0
  have g0 : mt.str 0 = monthDayPart w (hourText short d) mk := by
    rw [h0]
    show List.take _ (monthDayPart w (hourText short d) mk ++ tail) = _
    rw [List.take_left']
    unfold monthDayPart
    simp only [List.length_append, List.length_singleton]
    omega
  have g2 : mt.str 2 = [] := hg (2, none) (by simp) (by decide)
  have g6 : mt.str 6 = [] := hg (6, none) (by simp) (by decide)
  have g8 : mt.str 8 = [] := hg (8, none) (by simp) (by decide)
  have g10 : mt.str 10 = [] := hg (10, none) (by simp) (by decide)
  have g3 : mt.str 3 = w := by
    rw [hg (3, some (0, w.length)) (by simp) (by simp)]
    simp [spanText, slice, monthDay]
  have g5 : mt.str 5 = hourText short d := by
    rw [hg (5, some (w.length + 1, w.length + 1 + (hourText short d).length)) (by simp) (by simp)]
    have := slice_mid (w ++ txt!" ") (hourText short d) (mk ++ txt!" " ++ tail) (i := w.length + 1) (j := w.length + 1 + (hourText short d).length) (by simp) (by simp)
    unfold spanText monthDay
    simpa [List.append_assoc] using this
  have hd100 : d < if short then 10 else 100 := by
    cases short
    · show d < 100; omega
    · exact hshort rfl
  have hday : middleEndianDay mt = .ok (d : Int) := by
    unfold middleEndianDay
    rw [g5, if_neg (by cases short <;> simp [hourText, two]), stoi_hourText hd100]
    show Out.ok (toU16 d) = _
    rw [show toU16 (d : Int) = d by unfold toU16; omega]
  have hyear : middleEndianYear mt = .ok (some (-1)) := by
    unfold middleEndianYear
    rw [g8, g10]
    rfl
  obtain ⟨y, hy⟩ := nearestYear_ok hx hc h1 h2
  obtain ⟨-, -, -, y', rfl, hyy, hn⟩ := nearestYear_sound hx hy
  have hlow : toLower (monthDay w (hourText short d) mk tail) = monthDay w (hourText short d) mk tail := by
    have e1 : dayMarks.all (fun k => toLower k == k) = true := by decide
    have e2 : dayTails.all (fun k => toLower k == k) = true := by decide
    have e1 := List.all_eq_true.1 e1 mk hmk
    have e2 := List.all_eq_true.1 e2 tail ht
    unfold monthDay
    simp only [toLower_append, hl, eq_of_beq e1, eq_of_beq e2, toLower_hourText]
    rfl
  refine yields_of hrt middleEndian_pattern middleEndian_min hlow hf (pureExtract_ok (middleEndian_plain hc.1 hc.2.1 hc.2.2.1 hd31
    (by rw [g3]; exact gm) hday g2 g6 hyear (.inr ⟨rfl, hy⟩))) ?_ ?_ ?_ ?_
  · refine hasPossibleDates_of_year ?_
    show (y' : Int) ≠ 0
    omega
  · rfl
  · exact g0
  · exact ⟨y', ⟨rfl, rfl, rfl⟩, hn h29 h28, ⟨rfl, rfl, rfl⟩, rfl⟩

/-! ## Month, day, year -/

/-- The ways to write an era after the year. -/
def eraTexts' : List (Text × Era) :=
  [([], .unmarked), (txt!"be", .be), (txt!" be", .be), (txt!"ad", .ad), (txt!" ad", .ad), (txt!"bc", .bc), (txt!" bc", .bc)]

/-- Month, blank, day, blank, year in four digits, era, blank, tail. -/
def fullDate (w ds : Text) (n : Nat) (era tail : Text) : Text := w ++ txt!" " ++ ds ++ txt!" " ++ four n ++ era ++ txt!" " ++ tail

/-- What the parser reports of it. -/
def fullDatePart (w ds : Text) (n : Nat) (era : Text) : Text := w ++ txt!" " ++ ds ++ txt!" " ++ four n ++ era ++ txt!" "

theorem fullDate_checks : monthConstants.all (fun p => eraTexts'.all fun e => [true, false].all fun short =>
    let i := p.1.length + 2 + (hourText short 11).length
    checkSpans Ast.middleEndian (fullDate p.1 (hourText short 11) 1111 e.1 txt!"at noon") (i + 5 + e.1.length)
      [(2, none), (3, some (0, p.1.length)), (5, some (p.1.length + 1, p.1.length + 1 + (hourText short 11).length)), (6, none),
       (8, some (i, i + 4)), (9, if e.1 = [] then none else some (i + 4 + (e.1.length - 2), i + 4 + e.1.length)), (10, none), (11, none)]) = true := by
  decide +kernel

theorem dr_fullDate (w : Text) (short : Bool) (d n : Nat) (era tail : Text) :
    List.Forall₂ DigitRel (fullDate w (hourText short d) n era tail) (fullDate w (hourText short 11) 1111 era tail) :=
  dr_append (dr_append (dr_append (dr_append (dr_append (dr_append (dr_same _) (dr_hour short d)) (dr_same _)) dr_four) (dr_same _)) (dr_same _)) (dr_same _)

/-- **C31 (month, day and year).** For every spelling of a month (but `may.`), every day 1..31 in one or two digits, every
number 0..9999 in four digits and every way to write an era, followed by ` at noon`: the parser yields that month and day
in the year that is meant, all three certain - except if the year that is meant is -1. -/
theorem c31_full_date_partial (rt : Rt) (hrt : rt.Benign) (g : Globals) (ref : PTime) (w : Text) (m : Nat)
    (hw : monthWord w m = true) (hmay : w ≠ txt!"may.") (short : Bool) (d : Nat) (hshort : short = true → d < 10)
    (hd1 : 1 ≤ d) (hd2 : d ≤ 31) (n : Nat) (hn : n ≤ 9999) (e : Text × Era) (he : e ∈ eraTexts') (h1 : writtenYear n e.2 ≠ -1) :
    Yields (execute rt middleEndianParser g (fullDate w (hourText short d) n e.1 txt!"at noon") ref) (fullDatePart w (hourText short d) n e.1)
      (fun r => r.startDate.get .year = writtenYear n e.2 ∧ r.startDate.get .month = m ∧ r.startDate.get .mday = d ∧
        TimeIs r.startDate 0 0 0 ∧ r.hasEnd = false ∧
        r.startDate.certain .year = true ∧ r.startDate.certain .month = true ∧ r.startDate.certain .mday = true) := by
  have hm := monthWord_mem hw hmay
  have hck := List.all_eq_true.1 (List.all_eq_true.1 (List.all_eq_true.1 fullDate_checks _ hm) e he) short (by cases short <;> simp)
  obtain ⟨mt, hf, hst, h0, hg⟩ := foundSpans _ _ _ middleEndian_blind hck (dr_fullDate w short d n e.1 _)
  obtain ⟨gm, hl, -⟩ := monthConstants_get hm
  have hm12 : 1 ≤ m ∧ m ≤ 12 := by
    unfold monthWord at hw
    simp only [Bool.and_eq_true, decide_eq_true_eq] at hw
    exact hw.1
  have hlen : (hourText short 11).length = (hourText short d).length := by rw [hourText_length, hourText_length]
  rw [hlen] at hg hst h0
  have hlen4 : (four n).length = 4 := rfl
  have g0 : mt.str 0 = fullDatePart w (hourText short d) n e.1 := by
    rw [h0]
    show List.take _ (fullDatePart w (hourText short d) n e.1 ++ txt!"at noon") = _
    rw [List.take_left']
    unfold fullDatePart
    simp only [List.length_append, List.length_singleton, hlen4]
    omega
  have g2 : mt.str 2 = [] := hg (2, none) (by simp) (by decide)
  have g6 : mt.str 6 = [] := hg (6, none) (by simp) (by decide)
  have g10 : mt.str 10 = [] := hg (10, none) (by simp) (by decide)
  have g11 : mt.str 11 = [] := hg (11, none) (by simp) (by decide)
  have g3 : mt.str 3 = w := by
    rw [hg (3, some (0, w.length)) (by simp) (by simp)]
    simp [spanText, slice, fullDate]
  have g5 : mt.str 5 = hourText short d := by
    rw [hg (5, some (w.length + 1, w.length + 1 + (hourText short d).length)) (by simp) (by simp)]
    have := slice_mid (w ++ txt!" ") (hourText short d) (txt!" " ++ four n ++ e.1 ++ txt!" " ++ txt!"at noon") (i := w.length + 1) (j := w.length + 1 + (hourText short d).length) (by simp) (by simp)
    unfold spanText fullDate
    simpa [List.append_assoc] using this
  have g8 : mt.str 8 = four n := by
    rw [hg (8, some (w.length + 2 + (hourText short d).length, w.length + 2 + (hourText short d).length + 4)) (by simp) (by simp)]
    have := slice_mid (w ++ txt!" " ++ hourText short d ++ txt!" ") (four n) (e.1 ++ txt!" " ++ txt!"at noon") (i := w.length + 2 + (hourText short d).length)
      (j := w.length + 2 + (hourText short d).length + 4) (by simp only [List.length_append, List.length_singleton]; omega)
      (by simp only [List.length_append, List.length_singleton, hlen4]; omega)
    unfold spanText fullDate
    simpa [List.append_assoc] using this
  have g9 : toLower (mt.str 9) = e.2.text := by
    rw [hg (9, if e.1 = [] then none else some (w.length + 2 + (hourText short d).length + 4 + (e.1.length - 2),
      w.length + 2 + (hourText short d).length + 4 + e.1.length)) (by simp) (by simp)]
    have key : ∀ gap : Text, e.1 = gap ++ e.2.text → e.2.text.length = 2 → toLower (spanText (fullDate w (hourText short d) n e.1 txt!"at noon") (some
        (w.length + 2 + (hourText short d).length + 4 + (e.1.length - 2), w.length + 2 + (hourText short d).length + 4 + e.1.length))) = toLower e.2.text := by
      intro gap h1 h2
      have hgl : e.1.length = gap.length + 2 := by rw [h1, List.length_append, h2]
      have := slice_mid (w ++ txt!" " ++ hourText short d ++ txt!" " ++ four n ++ gap) e.2.text (txt!" " ++ txt!"at noon")
        (i := w.length + 2 + (hourText short d).length + 4 + (e.1.length - 2)) (j := w.length + 2 + (hourText short d).length + 4 + e.1.length)
        (by simp only [List.length_append, List.length_singleton, hlen4]; omega)
        (by simp only [List.length_append, List.length_singleton, hlen4]; omega)
      unfold spanText fullDate
      simp only
      rw [show w ++ txt!" " ++ hourText short d ++ txt!" " ++ four n ++ e.1 ++ txt!" " ++ txt!"at noon" =
        w ++ txt!" " ++ hourText short d ++ txt!" " ++ four n ++ gap ++ e.2.text ++ (txt!" " ++ txt!"at noon") by rw [h1]; simp only [List.append_assoc], this]
    simp only [eraTexts', List.mem_cons, List.not_mem_nil, or_false] at he
    rcases he with rfl | rfl | rfl | rfl | rfl | rfl | rfl
    · rfl
    · exact key [] rfl rfl
    · exact key txt!" " rfl rfl
    · exact key [] rfl rfl
    · exact key txt!" " rfl rfl
    · exact key [] rfl rfl
    · exact key txt!" " rfl rfl
  have hd100 : d < if short then 10 else 100 := by
    cases short
    · show d < 100; omega
    · exact hshort rfl
  have hday : middleEndianDay mt = .ok (d : Int) := by
    unfold middleEndianDay
    rw [g5, if_neg (by cases short <;> simp [hourText, two]), stoi_hourText hd100]
    show Out.ok (toU16 d) = _
    rw [show toU16 (d : Int) = d by unfold toU16; omega]
  have hyear : middleEndianYear mt = .ok (some (writtenYear n e.2)) := by
    unfold middleEndianYear
    have hst : stoiCaught (four n) = .ok (some (n : Int)) := by unfold stoiCaught; rw [stoi_four (by omega)]
    rw [g8, g10, g11]
    simp only [List.isEmpty_nil, Bool.not_true, Bool.or_false, Bool.false_eq_true, if_false]
    rw [show (!(four n).isEmpty) = true from rfl, if_pos rfl, hst]
    simp only [Out.bind_ok]
    rw [eraYear_written (e := e.2) ⟨[], g9, fun _ => rfl⟩]
    rfl
  have hlow : toLower (fullDate w (hourText short d) n e.1 txt!"at noon") = fullDate w (hourText short d) n e.1 txt!"at noon" := by
    have e1 : eraTexts'.all (fun k => toLower k.1 == k.1) = true := by decide
    have e1 := List.all_eq_true.1 e1 e he
    unfold fullDate
    simp only [toLower_append, hl, eq_of_beq e1, toLower_hourText, toLower_four]
    rfl
  refine yields_of hrt middleEndian_pattern middleEndian_min hlow hf (pureExtract_ok (middleEndian_plain hm12.1 hm12.2 hd1 hd2
    (by rw [g3]; exact gm) hday g2 g6 hyear (.inl ⟨h1, rfl⟩))) ?_ ?_ ?_ ?_
  · unfold PResult.hasPossibleDates
    simp
    omega
  · rfl
  · exact g0
  · exact ⟨rfl, rfl, rfl, ⟨rfl, rfl, rfl⟩, rfl, rfl, rfl, rfl⟩

/-! ## C64: end to end -/

theorem month_printed_checks : (monthConstants.filter (fun p => !(p.1 == txt!"jun" || p.1 == txt!"jun."))).all (fun p => othersShort 6 p.1) = true := by
  decide +kernel

/-- **C64.** The program, run on the name of a month in any spelling (but `may.`, `jun`, `jun.`), prints the first of that
month in the year that puts it nearest to the reference date. -/
theorem c64_month_printed (rt : Rt) (hrt : Rt.Defined rt) (sort : List PResult → List PResult) (hs : Sorts sort)
    (ref : PTime) (x : DateTime) (hx : RefReads ref x) (h1 : 1401 ≤ x.year) (h2 : x.year ≤ 9998) (w : Text) (m : Nat)
    (hw : monthWord w m = true) (hno : w ∉ [txt!"may.", txt!"jun", txt!"jun."]) :
    ∃ y, NearestYear x.date m 1 y ∧ mainRun rt sort w ref = .ok (foundLine ++ (midnight (y, m, 1)).format) := by
  have hm := monthWord_known hw hno
  have hy := c30_month_phrase rt hrt.stale integerWords ref x hx h1 h2 w m hw hno
  obtain ⟨r, g, h3, h4, h5, y, h6, h7, h8, h9, -⟩ := hy
  obtain ⟨gm, hl, hlen⟩ := monthConstants_get (List.mem_of_mem_filter hm)
  have hm12 : 1 ≤ m ∧ m ≤ 12 := by
    unfold monthWord at hw
    simp only [Bool.and_eq_true, decide_eq_true_eq] at hw
    exact hw.1
  have hb := monthLength_bounds y m hm12.1 hm12.2
  have hyr := h7.1
  simp only [DateTime.date] at hyr
  refine ⟨y, h7, ?_⟩
  refine prints_date hrt hs (by omega) hx 6 (P := monthNameParser) rfl (t := midnight (y, m, 1))
    ⟨⟨by simp [midnight]; omega, by simp [midnight]; omega, hm12.1, hm12.2, by simp [midnight], by simp [midnight]; omega⟩, by simp [midnight], by simp [midnight], by simp [midnight]⟩
    (Q := fun r => DateIs r.startDate (y, m, 1) ∧ TimeIs r.startDate 0 0 0 ∧ r.hasEnd = false)
    ⟨r, g, h3, h4, h5, h6, h8, h9⟩ (fun r h => h) ?_
  rw [hl]
  exact List.all_eq_true.1 month_printed_checks _ hm

theorem monthYear_printed_checks : (monthConstants.filter (fun p => !(p.1 == txt!"jun" || p.1 == txt!"jun."))).all (fun p => eraTexts.all fun e =>
    othersShort 6 (monthYear p.1 1111 e.1)) = true := by decide +kernel

/-- **C64.** The same with a year: the program prints the first of that month in the year that is meant, if that year is
one of 1400..9999. -/
theorem c64_month_year_printed (rt : Rt) (hrt : Rt.Defined rt) (sort : List PResult → List PResult) (hs : Sorts sort)
    (ref : PTime) (x : DateTime) (hx : RefReads ref x) (w : Text) (m : Nat)
    (hw : monthWord w m = true) (hno : w ∉ [txt!"may.", txt!"jun", txt!"jun."]) (n : Nat) (hn : n ≤ 9999) (e : Text × Era) (he : e ∈ eraTexts)
    (y : Nat) (hy : writtenYear n e.2 = y) (hy1 : 1400 ≤ y) (hy2 : y ≤ 9999) :
    mainRun rt sort (monthYear w n e.1) ref = .ok (foundLine ++ (midnight (y, m, 1)).format) := by
  have hm := monthWord_known hw hno
  obtain ⟨gm, hl, hlen⟩ := monthConstants_get (List.mem_of_mem_filter hm)
  have hm12 : 1 ≤ m ∧ m ≤ 12 := by
    unfold monthWord at hw
    simp only [Bool.and_eq_true, decide_eq_true_eq] at hw
    exact hw.1
  have hb := monthLength_bounds y m hm12.1 hm12.2
  have hel : eraTexts.all (fun k => toLower k.1 == k.1 && decide (k.1.length ≤ 3)) = true := by decide
  have hel := List.all_eq_true.1 hel e he
  simp only [Bool.and_eq_true, beq_iff_eq, decide_eq_true_eq] at hel
  refine prints_date hrt hs ?_ hx 6 (P := monthNameParser) rfl (t := midnight (y, m, 1))
    ⟨⟨hy1, hy2, hm12.1, hm12.2, by simp [midnight], by simp [midnight]; omega⟩, by simp [midnight], by simp [midnight], by simp [midnight]⟩
    (c31_month_year_partial rt hrt.stale integerWords ref w m hw hno n hn e he (by rw [hy]; omega))
    (fun r h => ⟨⟨h.1.trans hy, h.2.1, h.2.2.1⟩, h.2.2.2.1, h.2.2.2.2.1⟩) ?_
  · have : (monthYear w n e.1).length = w.length + 5 + e.1.length := by
      unfold monthYear
      simp only [List.length_append, show (four n).length = 4 from rfl]
      rfl
    rw [this]
    have := hel.2
    omega
  · rw [show toLower (monthYear w n e.1) = monthYear w n e.1 by unfold monthYear; simp only [toLower_append, hl, hel.1, toLower_four]; rfl]
    exact othersShort_sim (dr_monthYear w n e.1) (List.all_eq_true.1 (List.all_eq_true.1 monthYear_printed_checks _ hm) _ he)

end Chrono.Props
