import Verif.Props.P31_MonthDayPhrases
/-!
# C30, C31: where the month parsers fail; C57: inputs on which the program dies
-/
namespace Chrono.Props
open Chrono Chrono.Spec Chrono.Boost

/-- Midnight of a day. -/
def dayRef (y m d : Nat) : PTime := ⟨(dayNumber y m d * 86400) * 1000000⟩

theorem aug30_reads : RefReads (dayRef 2019 8 30) ⟨2019, 8, 30, 0, 0, 0⟩ := by constructor <;> decide +kernel
theorem dec1_reads : RefReads (dayRef 2020 12 1) ⟨2020, 12, 1, 0, 0, 0⟩ := by constructor <;> decide +kernel

/-- **C30 (as claimed) is false**: on 30 August 2019, `february 28` (followed by a word) becomes 28 February 2019, 183 days
away, although 28 February 2020 is 182 days away: the program compares with 29 February 2020, because adding a year to the
last day of a month gives the last day of the month. -/
theorem c30_february_28_refuted :
    (∃ r g, execute (Rt.usual 0) middleEndianParser integerWords txt!"february 28 at noon" (dayRef 2019 8 30) = .ok ([r], g) ∧
      DateIs r.startDate (2019, 2, 28) ∧ TimeIs r.startDate 0 0 0) ∧
    ¬ NearestYear (2019, 8, 30) 2 28 2019 := by
  refine ⟨startsAt_ok (t := ⟨2019, 2, 28, 0, 0, 0⟩) (by decide +kernel), ?_⟩
  rintro ⟨-, h⟩
  have := h 2020 (by decide) 183 182 (.inl (by decide +kernel)) (.inr (by decide +kernel))
  omega

/-- **C30 (as claimed) is false**: on 1 December 2020, `february 29` becomes 29 February 2021, which is no date. -/
theorem c30_february_29_refuted :
    (∃ r g, execute (Rt.usual 0) middleEndianParser integerWords txt!"february 29 at noon" (dayRef 2020 12 1) = .ok ([r], g) ∧
      DateIs r.startDate (2021, 2, 29) ∧ TimeIs r.startDate 0 0 0) ∧
    ¬ Civil 2021 2 29 :=
  ⟨startsAt_ok (t := ⟨2021, 2, 29, 0, 0, 0⟩) (by decide +kernel), by decide⟩

/-- **C30 (as claimed) is false**: `jun` and `jun.` are not recognised as June, whatever the reference time. -/
theorem c30_jun_refuted (rt : Rt) (sort : List PResult → List PResult) (hs : Sorts sort) (ref : PTime) :
    mainRun rt sort txt!"jun" ref = .ok invalidLine ∧ mainRun rt sort txt!"jun." ref = .ok invalidLine :=
  ⟨prints_invalid hs (by decide +kernel), prints_invalid hs (by decide +kernel)⟩

/-- **C31 (as claimed) is false**: 1 BC and 542 BE mean year -1, which the program takes for "no year given"; it uses the
year nearest to the reference date (here 2019). -/
theorem c31_one_bc_refuted :
    writtenYear 1 .bc = -1 ∧ writtenYear 542 .be = -1 ∧
    (∃ r g, execute (Rt.usual 0) monthNameParser integerWords txt!"march 0001bc" exampleRef = .ok ([r], g) ∧
      DateIs r.startDate (2019, 3, 1) ∧ TimeIs r.startDate 0 0 0) ∧
    (∃ r g, execute (Rt.usual 0) monthNameParser integerWords txt!"march 0542be" exampleRef = .ok ([r], g) ∧
      DateIs r.startDate (2019, 3, 1) ∧ TimeIs r.startDate 0 0 0) ∧
    (∃ r g, execute (Rt.usual 0) middleEndianParser integerWords txt!"march 5 0001 bc at noon" exampleRef = .ok ([r], g) ∧
      DateIs r.startDate (2019, 3, 5) ∧ TimeIs r.startDate 0 0 0) :=
  ⟨rfl, rfl, startsAt_ok (t := ⟨2019, 3, 1, 0, 0, 0⟩) (by decide +kernel), startsAt_ok (t := ⟨2019, 3, 1, 0, 0, 0⟩) (by decide +kernel),
    startsAt_ok (t := ⟨2019, 3, 5, 0, 0, 0⟩) (by decide +kernel)⟩

/-- **C31 (as claimed) is false**: with a blank before it, `bc` is not seen after month and year: `march 2012 bc` is printed as
March 2012. -/
theorem c31_blank_before_bc_refuted :
    mainRun (Rt.usual 0) sortKeep txt!"march 2012 bc" exampleRef = .ok (foundLine ++ (midnight (2012, 3, 1)).format) :=
  printed_ok (by decide +kernel)

/-- **C31 (as claimed) is false**: at the end of the text the year of a full date is not seen but read as a clock time:
`march 5 2012` is printed as 5 March of the nearest year, at 20:12. -/
theorem c31_date_at_end_refuted :
    mainRun (Rt.usual 0) sortKeep txt!"march 5 2012" exampleRef = .ok (foundLine ++ (DateTime.mk 2019 3 5 20 12 0).format) :=
  printed_ok (by decide +kernel)

/-! ## C57 -/

/-- The program died with an exception. -/
def Dies (o : Out Text) : Prop := ∃ e, o = .exn e

/-- A parser that throws on the text takes the program down, if the parsers before it return. -/
theorem dies_of_parser {rt : Rt} {sort : List PResult → List PResult} {text : Text} {ref : PTime} (hl : toLower text = text)
    {ps qs : List Parser} {P : Parser} (hps : mainParsers = ps ++ P :: qs) (hsil : ∀ Q ∈ ps, ∃ rs, execute rt Q integerWords text ref = .ok (rs, integerWords)) {e : Exc}
    (hP : execute rt P integerWords text ref = .exn e) : Dies (mainRun rt sort text ref) := by
  have key : ∀ ps : List Parser, (∀ Q ∈ ps, ∃ rs, execute rt Q integerWords text ref = .ok (rs, integerWords)) →
      runParsers rt ref (ps ++ P :: qs) integerWords text = .exn e := by
    intro ps
    induction ps with
    | nil => intro _; show (do let (rs, g) ← execute rt P integerWords text ref; _ : Out _) = _; rw [hP]; rfl
    | cons Q ps ih =>
      intro h
      obtain ⟨rs, hQ⟩ := h Q (by simp)
      show (do
        let (rs, g) ← execute rt Q integerWords text ref
        let (rest, g) ← runParsers rt ref (ps ++ P :: qs) g (textAfter text)
        return (rs ++ rest, g) : Out _) = _
      rw [hQ]
      simp only [Out.bind_ok]
      rw [show textAfter text = text from hl, ih (fun Q hQ => h Q (by simp [hQ]))]
      rfl
  refine ⟨e, ?_⟩
  unfold mainRun
  rw [hps, key ps hsil]
  rfl

theorem silent_of_take {n : Nat} {t : Text} (h : ((mainPatterns.take n).all fun o => match o with | none => true | some r => (r.search t).isNone) = true) :
    ∀ Q ∈ mainParsers.take n, silent Q t = true := by
  intro Q hQ
  rw [← mainPatterns_eq, ← List.map_take, List.all_eq_true] at h
  have := h Q.pattern (List.mem_map.2 ⟨Q, hQ, rfl⟩)
  unfold silent
  exact this

theorem silent_execute {rt : Rt} {ref : PTime} {g : Globals} {text : Text} (hl : toLower text = text) {Q : Parser} (h : silent Q text = true) :
    ∃ rs, execute rt Q g text ref = .ok (rs, g) := by
  unfold silent at h
  cases hr : Q.pattern with
  | none => exact ⟨[], by unfold execute; rw [hr]⟩
  | some r =>
    rw [hr] at h
    refine ⟨[], execute_none hr ?_⟩
    rw [hl]
    exact Option.isNone_iff_eq_none.1 h

/-- **C57 (as claimed) is false**: whatever the reference time, the program dies on `may.`: the pattern takes the full stop,
but the table of months has no `may.`. -/
theorem c57_may_refuted (rt : Rt) (hrt : rt.Benign) (sort : List PResult → List PResult)
    (ref : PTime) (x : DateTime) (hx : RefReads ref x) : Dies (mainRun rt sort txt!"may." ref) := by
  obtain ⟨mt, hf, hg⟩ := foundAt0 (r := Ast.monthName) (phrase := txt!"may.") [(0, txt!"may."), (1, []), (2, txt!"may."), (3, [])] (by decide +kernel)
  have g0 : mt.str 0 = txt!"may." := hg (0, txt!"may.") (by simp)
  have g1 : mt.str 1 = [] := hg (1, []) (by simp)
  have g2 : mt.str 2 = txt!"may." := hg (2, txt!"may.") (by simp)
  have g3 : mt.str 3 = [] := hg (3, []) (by simp)
  obtain ⟨e, he, -⟩ := mkDate_exn (y := x.year) (m := 0) (d := 1) (by rintro ⟨-, -, -, h⟩; exact absurd h.2.2.1 (by decide))
  have hxx : monthNameParser.extract rt integerWords txt!"may." mt ref 0 = .exn e := by
    show pureExtract monthNameExtract rt integerWords txt!"may." mt ref 0 = _
    unfold pureExtract monthNameExtract
    have hl1 : mt.lengthOf 1 = 0 := by unfold Match.lengthOf; rw [g1]; rfl
    rw [g0, g2, g3, hl1, show monthConstants.get txt!"may." = 0 by decide +kernel]
    have : nearestYear ref ((0 : Nat) : Int) 1 = .exn e := by
      unfold nearestYear
      rw [(Date.year_of_ymd hx.date).1]
      simp only [Out.bind_ok]
      rw [show (((0 : Nat) : Int)) = 0 from rfl, he]
      rfl
    show (do let r ← (do let y ← nearestYear ref ((0 : Nat) : Int) 1; _ : Out PResult); _ : Out (PResult × Globals)) = _
    rw [this]
    rfl
  have hl : toLower txt!"may." = txt!"may." := by decide
  have := Scan.fail (k := 0) (P := monthNameParser) (rt := rt) (r := Ast.monthName) (text := txt!"may.") (ref := ref) (g := integerWords) (mt := mt)
    (by simpa using hf.first) (by rw [hf.start, Nat.add_zero, List.drop_zero, hxx]; intro x h; cases h)
  have hex : execute rt monthNameParser integerWords txt!"may." ref = .exn e := by
    rw [execute_of_scan hrt monthName_pattern monthName_min (by rw [hl]; exact this), hf.start, Nat.add_zero, List.drop_zero, hxx]
    rfl
  refine dies_of_parser hl (ps := mainParsers.take 6) (P := monthNameParser) (qs := mainParsers.drop 7) rfl ?_ hex
  exact fun Q hQ => silent_execute hl (silent_of_take (n := 6) (by decide +kernel) Q hQ)

/-- **C57 (as claimed) is false**: whatever the reference time, the program dies on `next N weeks` (or `last`, `week`) from
2147483648 on, however many digits `N` has. -/
theorem c57_many_weeks_refuted (rt : Rt) (hrt : Rt.Defined rt) (sort : List PResult → List PResult) (ref : PTime) (x : DateTime) (hx : RefReads ref x) (w num u : Text)
    (hw : w ∈ [txt!"next", txt!"last"]) (hn : IsDigits num) (hu : u ∈ weekNouns) (hbig : 2147483648 ≤ decimalValue num) :
    Dies (mainRun rt sort (weeksText w num u) ref) := by
  obtain ⟨hl, -⟩ := week_digits_found hw hn hu
  refine dies_of_parser hl (ps := mainParsers.take 11) (P := weekParser) (qs := []) rfl ?_ (c38_too_many_weeks_throw rt hrt.stale integerWords ref w num u hw hn hu hbig)
  have ho := weeks_others hw hn hu
  unfold othersShort at ho
  rw [List.all_eq_true] at ho
  intro Q hQ
  obtain ⟨j, hj⟩ := List.mem_iff_getElem?.1 hQ
  rw [List.getElem?_take] at hj
  split at hj
  · rename_i hj11
    by_cases h8 : j = 8
    · subst h8
      have hj' : some timeExprParser = some Q := hj
      rw [Option.some.injEq] at hj'
      rw [← hj']
      rcases c35_only_bad_reads_partial rt hrt.stale integerWords (weeksText w num u) ref x hx with h | ⟨-, f, -, hf⟩
      · exact h
      · exfalso
        obtain ⟨-, ⟨c, hc⟩, hd⟩ := hrt
        rcases hf with h | ⟨n, h⟩
        · rw [hc] at h; cases h
        · obtain ⟨d, hd⟩ := hd n
          rw [hd] at h; cases h
    · have := ho j (List.mem_range.2 (by omega))
      rw [Bool.or_eq_true, beq_iff_eq] at this
      rcases this with h | h
      · omega
      · refine silent_execute hl ?_
        rw [← mainPatterns_eq, List.getElem?_map, hj] at h
        simp only [Option.map_some, Option.join_some, if_neg h8] at h
        unfold silent
        revert h
        cases Q.pattern <;> simp
  · cases hj

/-- **C57 (as claimed) is false**: whatever the reference time, the program dies on every ISO date that is not a calendar
date of 1400..9999, such as `2019-02-30` or `1399-12-31`. -/
theorem c57_iso_non_dates_refuted (rt : Rt) (hrt : Rt.Defined rt) (sort : List PResult → List PResult) (hs : Sorts sort)
    (ref : PTime) (x : DateTime) (hx : RefReads ref x) (y m d : Nat) (h1 : 1 ≤ y) (h2 : y ≤ 9999) (h3 : 1 ≤ m) (h4 : m ≤ 12) (h5 : 1 ≤ d)
    (h6 : d ≤ 31) (hc : ¬ CivilInRange y m d) : Dies (mainRun rt sort (isoDate y m d) ref) := by
  have hy := c27_iso_date rt hrt.stale integerWords ref y m d h1 h2 h3 h4 h5 h6
  obtain ⟨r, -, -, ⟨⟨a1, a2, a3⟩, -⟩, -, hr⟩ := prints_whole hrt hs (text := isoDate y m d) (by
      have := (dr_isoDate (y := y) (m := m) (d := d)).length_eq
      rw [this]; decide) hx 9 (P := isoParser) rfl hy (by
        rw [toLower_isoDate]
        exact othersShort_sim dr_isoDate (by decide +kernel))
  simp only at a1 a2 a3
  obtain ⟨e, he, he'⟩ := mkDate_exn (y := y) (m := m) (d := d) (by
    rintro ⟨-, -, -, h⟩; simp only [Int.toNat_natCast] at h; exact hc h)
  refine ⟨e, ?_⟩
  rw [hr]
  unfold PResult.toDate Comps.date ptimeFromTm
  rw [a1, a2, a3, toU16_small (by omega), toU16_small (by omega), toU16_small (by omega), he]
  rfl

/-- The program died (as a check). -/
def died (o : Out Text) : Bool := match o with | .exn _ => true | _ => false

theorem died_ok {o : Out Text} (h : died o = true) : Dies o := by
  unfold died at h
  split at h
  · exact ⟨_, rfl⟩
  · cases h

/-- **C57 (as claimed) is false**: more texts on which the program dies, at 2019-03-15 00:30: a day that does not exist this
year, a year before 1400, a year BC, a clock time with 75 minutes. -/
theorem c57_more_texts_refuted : ∀ t ∈ [txt!"february 29 at noon", txt!"march 5 1 ad at noon", txt!"march 1999bc", txt!"12:75:30"],
    Dies (mainRun (Rt.usual 0) sortKeep t exampleRef) := by
  intro t ht
  have : [txt!"february 29 at noon", txt!"march 5 1 ad at noon", txt!"march 1999bc", txt!"12:75:30"].all
      (fun t => died (mainRun (Rt.usual 0) sortKeep t exampleRef)) = true := by decide +kernel
  exact died_ok (List.all_eq_true.1 this t ht)

end Chrono.Props
