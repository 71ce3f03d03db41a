import Verif.Props.P31_MonthDayPhrases
/-!
# C08, C09: results with an end; C66: ranges of days within a month
-/
namespace Chrono.Props
open Chrono Chrono.Spec Chrono.Boost

/-! ## Printing a result with an end -/

/-- **C08 (range).** A result with an end and without a time zone is printed as its start, ` - ` and its end. -/
theorem c08_toDate_prints_range (r : PResult) (t u : DateTime) (hv : t.Valid) (hr : Reads r.startDate t) (hu : u.Valid)
    (hre : Reads r.endDate u) (hend : r.hasEnd = true) (htz : r.getTag .extractTZ = false) :
    r.toDate = .ok (t.format ++ txt!" - " ++ u.format) := by
  obtain ⟨T, hT, hus⟩ := date_of_reads hr hv
  obtain ⟨U, hU, hus'⟩ := date_of_reads hre hu
  have h1 := toSimpleString_instant hv T 0 (by decide) (by decide) (by omega)
  have h2 := toSimpleString_instant hu U 0 (by decide) (by decide) (by omega)
  unfold PResult.toDate
  rw [hT, hU]
  simp [htz, hend, h1, h2]

/-- **C09 (range).** Printing a result with an end throws an out-of-range exception if the start is a date and the end is
none. -/
theorem c09_range_end_not_a_date (r : PResult) (t : DateTime) (hv : t.Valid) (hr : Reads r.startDate t) (y m d h mi s : Nat)
    (hy : y < 65536) (hm : m < 65536) (hd : d < 65536) (hre : Reads r.endDate ⟨y, m, d, h, mi, s⟩)
    (hend : r.hasEnd = true) (hc : ¬ CivilInRange y m d) (htz : r.getTag .extractTZ = false) :
    ∃ e, r.toDate = .exn e ∧ e.isOutOfRange = true := by
  obtain ⟨T, hT, hus⟩ := date_of_reads hr hv
  have h1 := toSimpleString_instant hv T 0 (by decide) (by decide) (by omega)
  obtain ⟨g1, g2, g3, g4, g5, g6⟩ := hre
  obtain ⟨e, he, he'⟩ := mkDate_exn (y := y) (m := m) (d := d) (by
    rintro ⟨-, -, -, h⟩; simp only [Int.toNat_natCast] at h; exact hc h)
  have hU : r.endDate.date = .exn e := by
    unfold Comps.date ptimeFromTm
    rw [g1, g2, g3, toU16_small hy, toU16_small hm, toU16_small hd, he]
    rfl
  refine ⟨e, ?_, he'⟩
  unfold PResult.toDate
  rw [hT, hU]
  simp [htz, hend, h1]

/-! ## The phrases -/

/-- What stands between the two days. -/
def rangeSeps : List Text := [txt!" - ", txt!" to "]

/-- The marks after the two days: none, or the same kind on both. -/
def markPairs : List (Text × Text) := dayMarks.map fun m => (m, m)

/-- Month, blank, day, mark, separator, day, mark. -/
def dayRange (w ds1 mk1 sep ds2 mk2 : Text) : Text := w ++ txt!" " ++ ds1 ++ mk1 ++ sep ++ ds2 ++ mk2

/-- The groups of the middle-endian pattern on such a text. -/
def dayRangeOk (w mk1 sep mk2 : Text) (s1 s2 : Bool) : Bool :=
  let i := w.length + 1
  let j := i + (hourText s1 11).length
  let k := j + mk1.length + sep.length
  let l := k + (hourText s2 11).length
  checkSpans Ast.middleEndian (dayRange w (hourText s1 11) mk1 sep (hourText s2 11) mk2) (l + mk2.length)
    [(2, none), (3, some (0, w.length)), (5, some (i, j)), (6, some (k, l + mk2.length)), (7, some (k, l)), (8, none), (10, none)]

/-- All phrases with the months of a part of the table. -/
def dayRangeChunk (ms : List (Text × Nat)) : Bool :=
  ms.all fun p => rangeSeps.all fun sep => markPairs.all fun mk => [true, false].all fun s1 => [true, false].all fun s2 =>
    dayRangeOk p.1 mk.1 sep mk.2 s1 s2

-- in parts, to keep the memory of the kernel small
theorem dayRange_checks0 : dayRangeChunk ((monthConstants.drop 0).take 5) = true := by decide +kernel
theorem dayRange_checks1 : dayRangeChunk ((monthConstants.drop 5).take 5) = true := by decide +kernel
theorem dayRange_checks2 : dayRangeChunk ((monthConstants.drop 10).take 5) = true := by decide +kernel
theorem dayRange_checks3 : dayRangeChunk ((monthConstants.drop 15).take 5) = true := by decide +kernel
theorem dayRange_checks4 : dayRangeChunk ((monthConstants.drop 20).take 5) = true := by decide +kernel
theorem dayRange_checks5 : dayRangeChunk ((monthConstants.drop 25).take 5) = true := by decide +kernel
theorem dayRange_checks6 : dayRangeChunk (monthConstants.drop 30) = true := by decide +kernel

theorem dayRange_checks : dayRangeChunk monthConstants = true := by
  have h : monthConstants = (monthConstants.drop 0).take 5 ++ ((monthConstants.drop 5).take 5 ++ ((monthConstants.drop 10).take 5 ++
    ((monthConstants.drop 15).take 5 ++ ((monthConstants.drop 20).take 5 ++ ((monthConstants.drop 25).take 5 ++ monthConstants.drop 30))))) := by decide
  rw [h]
  unfold dayRangeChunk
  simp only [List.all_append, Bool.and_eq_true]
  exact ⟨dayRange_checks0, dayRange_checks1, dayRange_checks2, dayRange_checks3, dayRange_checks4, dayRange_checks5, dayRange_checks6⟩

theorem dr_dayRange (w : Text) (s1 s2 : Bool) (d1 d2 : Nat) (mk1 sep mk2 : Text) :
    List.Forall₂ DigitRel (dayRange w (hourText s1 d1) mk1 sep (hourText s2 d2) mk2) (dayRange w (hourText s1 11) mk1 sep (hourText s2 11) mk2) :=
  dr_append (dr_append (dr_append (dr_append (dr_append (dr_same _) (dr_hour s1 d1)) (dr_same _)) (dr_same _)) (dr_hour s2 d2)) (dr_same _)

/-- A result of the middle-endian parser on month `m`, days `d` to `d2`. -/
theorem middleEndian_range {rt : Rt} {g : Globals} {tx : Text} {mt : Match} {ref : PTime} {m d : Nat} {d2 : Nat} {y : Int}
    (hm1 : 1 ≤ m) (hm2 : m ≤ 12) (hd1 : 1 ≤ d) (hd2 : d ≤ 31)
    (g3 : monthConstants.get (mt.str 3) = m) (hday : middleEndianDay mt = .ok (d : Int)) (g2 : mt.str 2 = [])
    (g6 : mt.str 6 ≠ []) (g7 : mt.str 7 ≠ []) (h7 : stoi (mt.str 7) = .ok (d2 : Int))
    (hy : middleEndianYear mt = .ok (some (-1))) (hyy : nearestYear ref m d = .ok y) :
    ∃ r, middleEndianExtract rt g tx mt ref 0 = .ok r ∧ r.index = 0 ∧ r.text = mt.str 0 ∧ r.hasEnd = true ∧
      (r.startDate.get .year = y ∧ r.startDate.get .month = m ∧ r.startDate.get .mday = d ∧ TimeIs r.startDate 0 0 0) ∧
      (r.endDate.get .year = y ∧ r.endDate.get .month = m ∧ r.endDate.get .mday = d2 ∧ TimeIs r.endDate 23 59 0) := by
  unfold middleEndianExtract
  simp only [g3, hday, Out.bind_ok, g2, hy]
  rw [if_neg (by omega)]
  unfold middleEndianRange
  have e6 : (mt.str 6).isEmpty = false := by cases h : mt.str 6 with | nil => exact absurd h g6 | cons => rfl
  have e7 : (mt.str 7).isEmpty = false := by cases h : mt.str 7 with | nil => exact absurd h g7 | cons => rfl
  rw [e6, e7]
  have : (if (-1 : Int) ≠ -1 then pure (-1) else nearestYear ref (m : Int) (d : Int) : Out Int) = .ok y := by
    rw [if_neg (by simp)]; exact hyy
  rw [this]
  simp only [List.isEmpty_nil, if_true, Bool.false_eq_true, if_false, h7, Out.bind_ok, Out.pure_eq]
  exact ⟨_, rfl, rfl, rfl, rfl, ⟨rfl, rfl, rfl, rfl, rfl, rfl⟩, ⟨rfl, rfl, rfl, rfl, rfl, rfl⟩⟩

theorem markPairs_mem {mk : Text × Text} (h : mk ∈ markPairs) : toLower mk.1 = mk.1 ∧ toLower mk.2 = mk.2 ∧ mk.1.length ≤ 2 ∧ mk.2.length ≤ 2 := by
  have : markPairs.all (fun mk => toLower mk.1 == mk.1 && (toLower mk.2 == mk.2 && (decide (mk.1.length ≤ 2) && decide (mk.2.length ≤ 2)))) = true := by decide
  have := List.all_eq_true.1 this mk h
  simpa using this

theorem toLower_dayRange {w : Text} {m : Nat} (hm : (w, m) ∈ monthConstants) (s1 s2 : Bool) (d1 d2 : Nat) {mk : Text × Text} (hmk : mk ∈ markPairs)
    {sep : Text} (hsep : sep ∈ rangeSeps) : toLower (dayRange w (hourText s1 d1) mk.1 sep (hourText s2 d2) mk.2) = dayRange w (hourText s1 d1) mk.1 sep (hourText s2 d2) mk.2 := by
  obtain ⟨-, hl, -⟩ := monthConstants_get hm
  obtain ⟨e1, e2, -, -⟩ := markPairs_mem hmk
  have e3 : rangeSeps.all (fun k => toLower k == k) = true := by decide
  have e3 := List.all_eq_true.1 e3 sep hsep
  unfold dayRange
  simp only [toLower_append, hl, e1, e2, eq_of_beq e3, toLower_hourText]
  rfl

/-- **C66 (parser).** For every spelling of a month (but `may.`), days `d1` and `d2` in one or two digits with or without
`st`, `nd`, `rd`, `th`, written `march 5 - 12`, `march 5 to 12`: if the first day exists in that month of the reference
year, the parser yields one result that covers the text and runs from the first day at 00:00:00 to the second day, same
month and year, at 23:59:00; the year is the one that puts the first day nearest to the reference date. Missing: 29 and
28 February as in `c30_month_day_phrase_partial`; nothing demands that the second day exists or is not before the first. -/
theorem c66_day_range_phrase_partial (rt : Rt) (hrt : rt.Benign) (g : Globals) (ref : PTime) (x : DateTime) (hx : RefReads ref x)
    (h1 : 1401 ≤ x.year) (h2 : x.year ≤ 9998) (w : Text) (m : Nat) (hw : monthWord w m = true) (hmay : w ≠ txt!"may.")
    (s1 s2 : Bool) (d1 d2 : Nat) (hs1 : s1 = true → d1 < 10) (hs2 : d2 < if s2 then 10 else 100)
    (hc : Civil x.year m d1) (h29 : m = 2 → d1 ≤ 28) (h28 : ¬ (m = 2 ∧ d1 = 28 ∧ Leap (x.year + 1)))
    (mk : Text × Text) (hmk : mk ∈ markPairs) (sep : Text) (hsep : sep ∈ rangeSeps) :
    let text := dayRange w (hourText s1 d1) mk.1 sep (hourText s2 d2) mk.2
    Yields (execute rt middleEndianParser g text ref) text
      (fun r => ∃ y, NearestYear x.date m d1 y ∧ DateIs r.startDate (y, m, d1) ∧ TimeIs r.startDate 0 0 0 ∧
        r.hasEnd = true ∧ DateIs r.endDate (y, m, d2) ∧ TimeIs r.endDate 23 59 0) := by
  intro text
  have hm := monthWord_mem hw hmay
  have hck : dayRangeOk w mk.1 sep mk.2 s1 s2 = true :=
    List.all_eq_true.1 (List.all_eq_true.1 (List.all_eq_true.1 (List.all_eq_true.1 (List.all_eq_true.1 dayRange_checks _ hm) sep hsep) mk hmk) s1 (by cases s1 <;> simp)) s2 (by cases s2 <;> simp)
  obtain ⟨mt, hf, hst, h0, hg⟩ := foundSpans _ _ _ middleEndian_blind hck (dr_dayRange w s1 s2 d1 d2 mk.1 sep mk.2)
  obtain ⟨gm, hl, -⟩ := monthConstants_get hm
  have hb := monthLength_bounds x.year m hc.1 hc.2.1
  have hd31 : d1 ≤ 31 := by have := hc.2.2.2; omega
  have hlen : (hourText s1 11).length = (hourText s1 d1).length := by rw [hourText_length, hourText_length]
  have hlen2 : (hourText s2 11).length = (hourText s2 d2).length := by rw [hourText_length, hourText_length]
  rw [hlen, hlen2] at hg hst h0
  have hpos1 : (hourText s1 d1).length ≠ 0 := by rw [hourText_length]; split <;> omega
  have hpos2 : (hourText s2 d2).length ≠ 0 := by rw [hourText_length]; split <;> omega
  have hne : ∀ {t : Text}, t.length ≠ 0 → t ≠ [] := by rintro _ h rfl; exact h rfl
  have g0 : mt.str 0 = text := by
    rw [h0, List.take_of_length_le]
    show text.length ≤ _
    simp only [text, dayRange, List.length_append, List.length_singleton]
    omega
  have g2 : mt.str 2 = [] := hg (2, none) (by simp) (by decide)
  have g8 : mt.str 8 = [] := hg (8, none) (by simp) (by decide)
  have g10 : mt.str 10 = [] := hg (10, none) (by simp) (by decide)
  have g3 : mt.str 3 = w := by
    rw [hg (3, some (0, w.length)) (by simp) (by simp)]
    simp [spanText, slice, dayRange]
  have g5 : mt.str 5 = hourText s1 d1 := by
    rw [hg (5, some (w.length + 1, w.length + 1 + (hourText s1 d1).length)) (by simp) (by simp)]
    have := slice_mid (w ++ txt!" ") (hourText s1 d1) (mk.1 ++ sep ++ hourText s2 d2 ++ mk.2) (i := w.length + 1) (j := w.length + 1 + (hourText s1 d1).length) (by simp) (by simp)
    unfold spanText dayRange
    simpa [List.append_assoc] using this
  have g7 : mt.str 7 = hourText s2 d2 := by
    rw [hg (7, some (w.length + 1 + (hourText s1 d1).length + mk.1.length + sep.length, w.length + 1 + (hourText s1 d1).length + mk.1.length + sep.length + (hourText s2 d2).length)) (by simp) (by simp)]
    have := slice_mid (w ++ txt!" " ++ hourText s1 d1 ++ mk.1 ++ sep) (hourText s2 d2) mk.2 (i := w.length + 1 + (hourText s1 d1).length + mk.1.length + sep.length)
      (j := w.length + 1 + (hourText s1 d1).length + mk.1.length + sep.length + (hourText s2 d2).length)
      (by simp only [List.length_append, List.length_singleton]) (by simp only [List.length_append, List.length_singleton])
    unfold spanText dayRange
    simpa [List.append_assoc] using this
  have g6 : mt.str 6 ≠ [] := by
    rw [hg (6, some (w.length + 1 + (hourText s1 d1).length + mk.1.length + sep.length, w.length + 1 + (hourText s1 d1).length + mk.1.length + sep.length + (hourText s2 d2).length + mk.2.length)) (by simp) (by simp)]
    have := slice_mid (w ++ txt!" " ++ hourText s1 d1 ++ mk.1 ++ sep) (hourText s2 d2 ++ mk.2) [] (i := w.length + 1 + (hourText s1 d1).length + mk.1.length + sep.length)
      (j := w.length + 1 + (hourText s1 d1).length + mk.1.length + sep.length + (hourText s2 d2).length + mk.2.length)
      (by simp only [List.length_append, List.length_singleton]) (by simp only [List.length_append, List.length_singleton]; omega)
    unfold spanText dayRange
    simp only [List.append_assoc, List.append_nil] at this ⊢
    rw [this]
    exact hne (by rw [List.length_append]; omega)
  have hd100 : d1 < if s1 then 10 else 100 := by
    cases s1
    · show d1 < 100; omega
    · exact hs1 rfl
  have hday : middleEndianDay mt = .ok (d1 : Int) := by
    unfold middleEndianDay
    rw [g5, if_neg (by cases s1 <;> simp [hourText, two]), stoi_hourText hd100]
    show Out.ok (toU16 d1) = _
    rw [show toU16 (d1 : Int) = d1 by unfold toU16; omega]
  have hyear : middleEndianYear mt = .ok (some (-1)) := by
    unfold middleEndianYear
    rw [g8, g10]
    rfl
  obtain ⟨y, hy⟩ := nearestYear_ok hx hc h1 h2
  obtain ⟨-, -, -, y', rfl, hyy, hn⟩ := nearestYear_sound hx hy
  obtain ⟨r, hr, e1, e2, e3, ⟨e4, e5, e6, e7⟩, e8, e9, e10, e11⟩ := middleEndian_range (rt := rt) (g := g) (tx := text) hc.1 hc.2.1 hc.2.2.1 hd31
    (by rw [g3]; exact gm) hday g2 g6 (by rw [g7]; exact hne hpos2) (by rw [g7]; exact stoi_hourText hs2) hyear hy
  refine yields_of hrt middleEndian_pattern middleEndian_min (toLower_dayRange hm s1 s2 d1 d2 hmk hsep) hf (pureExtract_ok hr)
    (hasPossibleDates_of_year (by rw [e4]; omega)) e1 (e2.trans g0) ?_
  refine ⟨y', hn h29 h28, ⟨e4, e5, e6⟩, e7, e3, ?_, ?_⟩
  · have : r.copy.endDate = r.endDate := by unfold PResult.copy; simp [e3]
    rw [this]; exact ⟨e8, e9, e10⟩
  · have : r.copy.endDate = r.endDate := by unfold PResult.copy; simp [e3]
    rw [this]; exact e11

/-! ## End to end -/

def dayRangeOthers (ms : List (Text × Nat)) : Bool :=
  (ms.filter (fun p => !p.1.contains 46)).all fun p => rangeSeps.all fun sep =>
    [true, false].all fun s1 => [true, false].all fun s2 => othersShort 4 (dayRange p.1 (hourText s1 11) [] sep (hourText s2 11) [])

theorem dayRange_others1 : dayRangeOthers (monthConstants.take 12) = true := by decide +kernel
theorem dayRange_others2 : dayRangeOthers ((monthConstants.drop 12).take 12) = true := by decide +kernel
theorem dayRange_others3 : dayRangeOthers (monthConstants.drop 24) = true := by decide +kernel

theorem dayRange_others {w : Text} {m : Nat} (hm : (w, m) ∈ monthConstants) (hdot : 46 ∉ w) (s1 s2 : Bool) (d1 d2 : Nat)
    {sep : Text} (hsep : sep ∈ rangeSeps) : othersShort 4 (toLower (dayRange w (hourText s1 d1) [] sep (hourText s2 d2) [])) = true := by
  have hall : dayRangeOthers monthConstants = true := by
    have h : monthConstants = monthConstants.take 12 ++ ((monthConstants.drop 12).take 12 ++ monthConstants.drop 24) := by decide
    rw [h]
    unfold dayRangeOthers
    simp only [List.filter_append, List.all_append, Bool.and_eq_true]
    exact ⟨dayRange_others1, dayRange_others2, dayRange_others3⟩
  have := toLower_dayRange hm s1 s2 d1 d2 (mk := ([], [])) (by decide) hsep
  simp only at this
  rw [this]
  refine othersShort_sim (dr_dayRange w s1 s2 d1 d2 [] sep []) ?_
  exact List.all_eq_true.1 (List.all_eq_true.1 (List.all_eq_true.1 (List.all_eq_true.1 hall (w, m)
    (List.mem_filter.2 ⟨hm, by simpa using hdot⟩)) sep hsep) s1 (by cases s1 <;> simp)) s2 (by cases s2 <;> simp)

theorem dayRange_length {w : Text} {m : Nat} (hm : (w, m) ∈ monthConstants) (s1 s2 : Bool) (d1 d2 : Nat) {mk : Text × Text} (hmk : mk ∈ markPairs)
    {sep : Text} (hsep : sep ∈ rangeSeps) : (dayRange w (hourText s1 d1) mk.1 sep (hourText s2 d2) mk.2).length < 4294967296 := by
  obtain ⟨-, -, hlen⟩ := monthConstants_get hm
  obtain ⟨-, -, e1, e2⟩ := markPairs_mem hmk
  have e3 : rangeSeps.all (fun k => decide (k.length ≤ 4)) = true := by decide
  have e3 := of_decide_eq_true (List.all_eq_true.1 e3 sep hsep)
  unfold dayRange
  simp only [List.length_append, hourText_length, List.length_singleton]
  have hb : ∀ b : Bool, (if b then 1 else 2) ≤ 2 := by decide
  have h1 := hb s1
  have h2 := hb s2
  omega

/-- **C66 (end to end).** For every spelling of a month without a full stop, the program run on `march 5 - 12` prints the
first day of the range at 00:00:00, ` - `, and the second day at 23:59:00, in the year that puts the first day nearest to the
reference date - if the second day exists in that month and year; otherwise it dies with an uncaught exception. -/
theorem c66_day_range_printed_partial (rt : Rt) (hrt : Rt.Defined rt) (sort : List PResult → List PResult) (hs : Sorts sort)
    (ref : PTime) (x : DateTime) (hx : RefReads ref x)
    (h1 : 1401 ≤ x.year) (h2 : x.year ≤ 9998) (w : Text) (m : Nat) (hw : monthWord w m = true) (hdot : 46 ∉ w)
    (s1 s2 : Bool) (d1 d2 : Nat) (hs1 : s1 = true → d1 < 10) (hs2 : d2 < if s2 then 10 else 100)
    (hc : Civil x.year m d1) (h29 : m = 2 → d1 ≤ 28) (h28 : ¬ (m = 2 ∧ d1 = 28 ∧ Leap (x.year + 1)))
    (sep : Text) (hsep : sep ∈ rangeSeps) :
    let text := dayRange w (hourText s1 d1) [] sep (hourText s2 d2) []
    ∃ y, NearestYear x.date m d1 y ∧
      (Civil y m d2 → mainRun rt sort text ref =
        .ok (foundLine ++ ((DateTime.mk y m d1 0 0 0).format ++ txt!" - " ++ (DateTime.mk y m d2 23 59 0).format))) ∧
      (¬ Civil y m d2 → ∃ e, mainRun rt sort text ref = .exn e) := by
  intro text
  have hmay : w ≠ txt!"may." := by rintro rfl; exact hdot (by decide)
  have hm := monthWord_mem hw hmay
  obtain ⟨r, -, -, ⟨y, q1, ⟨q2, q2', q2''⟩, ⟨q3, q3', q3''⟩, q4, ⟨q5, q5', q5''⟩, q6, q6', q6''⟩, htag, he⟩ :=
    prints_whole hrt hs (dayRange_length hm s1 s2 d1 d2 (mk := ([], [])) (by decide) hsep) hx 4 (P := middleEndianParser) rfl
      (c66_day_range_phrase_partial rt hrt.stale integerWords ref x hx h1 h2 w m hw hmay s1 s2 d1 d2 hs1 hs2 hc h29 h28 ([], []) (by decide) sep hsep)
      (dayRange_others hm hdot s1 s2 d1 d2 hsep)
  have hyr := q1.1
  simp only [DateTime.date] at hyr
  have hcy : Civil y m d1 := by
    refine ⟨hc.1, hc.2.1, hc.2.2.1, ?_⟩
    have hd := hc.2.2.2
    by_cases hm2 : m = 2
    · have := h29 hm2
      have : 28 ≤ monthLength y m := (monthLength_bounds y m hc.1 hc.2.1).1
      omega
    · have : monthLength y m = monthLength x.year m := by unfold monthLength; split <;> simp_all
      omega
  have hr : Reads r.startDate ⟨y, m, d1, 0, 0, 0⟩ := ⟨q2, q2', q2'', q3, q3', q3''⟩
  have hre : Reads r.endDate ⟨y, m, d2, 23, 59, 0⟩ := ⟨q5, q5', q5'', q6, q6', q6''⟩
  have hv : DateTime.Valid ⟨y, m, d1, 0, 0, 0⟩ := ⟨⟨by show 1400 ≤ y; omega, by show y ≤ 9999; omega, hcy⟩, by simp, by simp, by simp⟩
  refine ⟨y, q1, ?_, ?_⟩
  · intro hc2
    rw [he, c08_toDate_prints_range r _ _ hv hr ⟨⟨by show 1400 ≤ y; omega, by show y ≤ 9999; omega, hc2⟩, by simp, by simp, by simp⟩ hre q4 htag]
    rfl
  · intro hc2
    have : d2 < 100 := by split at hs2 <;> omega
    obtain ⟨e, h, -⟩ := c09_range_end_not_a_date r _ hv hr y m d2 23 59 0 (by omega) (by have := hc.2.1; omega) (by omega) hre q4
      (fun h => hc2 ⟨h.2.2.1, h.2.2.2.1, h.2.2.2.2.1, h.2.2.2.2.2⟩) htag
    exact ⟨e, by rw [he, h]; rfl⟩

example : dayRange txt!"march" (hourText true 5) [] txt!" - " (hourText false 12) [] = txt!"march 5 - 12" ∧
    dayRange txt!"dec." (hourText false 25) txt!"th" txt!" to " (hourText false 26) txt!"th" = txt!"dec. 25th to 26th" := by decide
example : Civil 2019 3 5 ∧ Civil 2019 3 12 ∧ ¬ Civil 2019 3 40 ∧ monthWord txt!"march" 3 = true ∧ (txt!"th", txt!"th") ∈ markPairs := by decide

/-- **C66 (refuted part).** The end of the range may lie before its start: on `march 5 - 3` the program prints such a
range, for every reference time of the years 1401 to 9998. -/
theorem c66_end_before_start_refuted (rt : Rt) (hrt : Rt.Defined rt) (sort : List PResult → List PResult) (hs : Sorts sort)
    (ref : PTime) (x : DateTime) (hx : RefReads ref x) (h1 : 1401 ≤ x.year) (h2 : x.year ≤ 9998) :
    ∃ y, mainRun rt sort txt!"march 5 - 3" ref =
      .ok (foundLine ++ ((DateTime.mk y 3 5 0 0 0).format ++ txt!" - " ++ (DateTime.mk y 3 3 23 59 0).format)) := by
  have hl : ∀ y, 5 ≤ monthLength y 3 := fun y => by unfold monthLength; simp
  obtain ⟨y, -, h, -⟩ := c66_day_range_printed_partial rt hrt sort hs ref x hx h1 h2 txt!"march" 3 (by decide) (by decide) true true 5 3 (by decide) (by decide)
    ⟨by decide, by decide, by decide, hl _⟩ (by simp) (by simp) txt!" - " (by decide)
  exact ⟨y, h ⟨by decide, by decide, by decide, by have := hl y; omega⟩⟩

/-- **C66, C57 (refuted part).** `march 5 - 40` ends the program with an uncaught exception. -/
theorem c66_missing_day_refuted (rt : Rt) (hrt : Rt.Defined rt) (sort : List PResult → List PResult) (hs : Sorts sort)
    (ref : PTime) (x : DateTime) (hx : RefReads ref x) (h1 : 1401 ≤ x.year) (h2 : x.year ≤ 9998) :
    ∃ e, mainRun rt sort txt!"march 5 - 40" ref = .exn e := by
  have hl : ∀ y, 5 ≤ monthLength y 3 := fun y => by unfold monthLength; simp
  obtain ⟨y, -, -, h⟩ := c66_day_range_printed_partial rt hrt sort hs ref x hx h1 h2 txt!"march" 3 (by decide) (by decide) true false 5 40 (by decide) (by decide)
    ⟨by decide, by decide, by decide, hl _⟩ (by simp) (by simp) txt!" - " (by decide)
  exact h (fun hc => by have := hc.2.2.2; have := monthLength_bounds y 3 (by omega) (by omega); omega)

end Chrono.Props
