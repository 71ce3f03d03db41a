import Verif.Props.P19_EndToEnd
import Mathlib.Data.List.Sort
/-!
# C56, C61: what the program prints for the documented phrases
-/
namespace Chrono.Props
open Chrono Chrono.Spec Chrono.Boost

/-! ## Nothing found -/

/-- No pattern finds anything. -/
def allSilent (t : Text) : Bool := mainPatterns.all fun o => match o with | none => true | some r => (r.search t).isNone

theorem silent_of_all {t : Text} (h : allSilent t = true) : ∀ P ∈ mainParsers, silent P t = true := by
  intro P hP
  have hm : P.pattern ∈ mainPatterns := by rw [← mainPatterns_eq]; exact List.mem_map_of_mem hP
  have := List.all_eq_true.1 h _ hm
  unfold silent
  revert this
  cases P.pattern <;> simp

theorem prints_invalid {rt : Rt} {sort : List PResult → List PResult} (hs : Sorts sort) {text : Text} {ref : PTime}
    (h : allSilent (toLower text) = true) : mainRun rt sort text ref = .ok invalidLine := by
  obtain ⟨rss, h4⟩ := forall₂_of_forall (l := mainParsers) (R := fun P rs => ParserReturns rt ref text P rs ∧ rs = [])
    (fun P hP => ⟨[], silent_returns (silent_of_all h P hP), rfl⟩)
  have h0 : ∀ (ps : List Parser) rss, List.Forall₂ (fun P rs => ParserReturns rt ref text P rs ∧ rs = []) ps rss → rss.flatten = [] := by
    intro ps rss hh
    induction hh with
    | nil => rfl
    | cons h1 _ ih => simp [h1.2, ih]
  obtain ⟨g, hg⟩ := runParsers_main.2 ⟨rss, h4.imp fun _ _ h => h.1, rfl⟩
  rw [mainRun_eq hg, h0 _ _ h4]
  have : sort [] = [] := (hs []).1.eq_nil
  rw [this]
  unfold runRefiners
  obtain ⟨rs', e, hl, -⟩ := c47_only_tagged_times_before_known_zone [] (textAfter text)
  have : rs' = [] := List.eq_nil_of_length_eq_zero (by simpa using hl)
  simp only [overlapRefine]
  rw [e, this]
  rfl

/-! ## One mention that need not cover the text -/

/-- Nothing is found by any pattern but that of the parser at position `i`. -/
def othersSilent (i : Nat) (t : Text) : Bool :=
  (List.range 12).all fun j => j == i ||
    match (mainPatterns[j]?).join with
    | none => true
    | some r => (r.search t).isNone

theorem othersSilent_sim {i : Nat} {phrase rep : Text} (hp : List.Forall₂ DigitRel phrase rep)
    (h : othersSilent i rep = true) : othersSilent i phrase = true := by
  unfold othersSilent at *
  rw [List.all_eq_true] at *
  intro j hj
  have := h j hj
  rw [Bool.or_eq_true] at *
  refine this.imp id fun h => ?_
  cases hr : (mainPatterns[j]?).join with
  | none => rfl
  | some r =>
    rw [hr] at h
    have hb : r.digitBlind = true := by
      obtain ⟨o, ho, h2⟩ := Option.join_eq_some_iff.1 hr |> fun h => (⟨_, h, rfl⟩ : ∃ o, mainPatterns[j]? = some o ∧ o = some r)
      exact mainPatterns_blind o (List.mem_of_getElem? ho) r h2
    exact search_sim_none hb hp h

theorem prints_single {rt : Rt} {sort : List PResult → List PResult} (hs : Sorts sort) {text : Text} {ref : PTime}
    (i : Nat) {P : Parser} (hP : mainParsers[i]? = some P) {r : PResult} (hy : ParserReturns rt ref text P [r])
    (ho : othersSilent i (toLower text) = true)
    (hz : ∀ abbr off, r.getTag .timeExpression = true → ¬ FollowedByZone (toLower text) r abbr off) :
    mainRun rt sort text ref = (do let d ← r.toDate; return foundLine ++ d) := by
  have hall : ∀ (j : Nat) (Q : Parser), mainParsers[j]? = some Q → ParserReturns rt ref text Q (if j = i then [r] else []) := by
    intro j Q hj
    by_cases hji : j = i
    · subst hji
      rw [hj] at hP; cases hP
      rw [if_pos rfl]; exact hy
    · rw [if_neg hji]
      have hj12 : j < 12 := (List.getElem?_eq_some_iff.1 hj).1
      have h1 := List.all_eq_true.1 ho j (by simp [hj12])
      rw [mainPatterns_get, hj] at h1
      simp only [Option.bind_some, Bool.or_eq_true, beq_iff_eq, hji, false_or] at h1
      refine silent_returns ?_
      unfold silent
      revert h1
      cases Q.pattern <;> simp
  have hi : i < 12 := (List.getElem?_eq_some_iff.1 hP).1
  obtain ⟨g, hg⟩ := runParsers_main.2 ⟨(List.range 12).map (fun j => if j = i then [r] else []), by
    rw [List.forall₂_iff_get]
    refine ⟨by simp [mainParsers], fun j h1 h2 => ?_⟩
    have := hall j (mainParsers.get ⟨j, h1⟩) (List.getElem?_eq_getElem h1)
    simpa using this, rfl⟩
  rw [mainRun_eq hg]
  have hf : ((List.range 12).map (fun j => if j = i then [r] else [])).flatten = [r] := by
    have key : ∀ n, i < n → ((List.range n).map (fun j => if j = i then [r] else [])).flatten = [r] := by
      intro n
      have hno : ∀ m, m ≤ i → ((List.range m).map (fun j => if j = i then [r] else ([] : List PResult))).flatten = [] := by
        intro m hm
        rw [List.flatten_eq_nil_iff]
        intro l hl
        obtain ⟨j, hj, rfl⟩ := List.mem_map.1 hl
        rw [if_neg (by have := List.mem_range.1 hj; omega)]
      induction n with
      | zero => intro h; omega
      | succ n ih =>
        intro h
        rw [List.range_succ, List.map_append, List.flatten_append]
        by_cases hn : i < n
        · rw [ih hn]; simp; omega
        · rw [hno n (by omega)]; simp; omega
    exact key 12 hi
  rw [hf]
  have hso : sort [r] = [r] := (hs [r]).1.eq_singleton
  rw [hso]
  exact refine_single (by rfl) hz

/-! ## C56: phrases that work -/

/-- Midnight at the beginning of a day. -/
def midnight (x : Nat × Nat × Nat) : DateTime := ⟨x.1, x.2.1, x.2.2, 0, 0, 0⟩

/-- **C56 (casual dates).** For every reference time the program prints for `today` the reference date at 00:00:00, for
`tomorrow` and `tmr` the next day at 00:00:00 unless the reference hour is 0 (then the reference date itself), and for
`yesterday` the day before at the reference hour (see C21 for the same defects). -/
theorem c56_casual_dates_partial (rt : Rt) (hrt : Rt.Defined rt) (sort : List PResult → List PResult) (hs : Sorts sort)
    (ref : PTime) (x : DateTime) (hx : RefReads ref x) :
    mainRun rt sort txt!"today" ref = .ok (foundLine ++ (midnight x.date).format) ∧
    mainRun rt sort txt!"now" ref = .ok (foundLine ++ x.format) ∧
    mainRun rt sort txt!"tonight" ref = .ok (foundLine ++ { midnight x.date with hour := 22 }.format) ∧
    (∀ y m d, nextDay x.date = (y, m, d) → CivilInRange y m d → ∀ phrase ∈ [txt!"tomorrow", txt!"tmr"],
      mainRun rt sort phrase ref = .ok (foundLine ++ (midnight (if x.hour = 0 then x.date else (y, m, d))).format)) ∧
    (∀ y m d, nextDay (y, m, d) = x.date → CivilInRange y m d →
      mainRun rt sort txt!"yesterday" ref = .ok (foundLine ++ { midnight (y, m, d) with hour := x.hour }.format)) := by
  obtain ⟨v1, v2, v3, v4⟩ := id hx.valid
  obtain ⟨t1, t2, t3⟩ := c21_today_tonight_now rt hrt.stale integerWords ref x hx
  refine ⟨?_, ?_, ?_, ?_, ?_⟩
  · exact prints_date hrt hs (by decide) hx 3 rfl (t := midnight x.date) ⟨v1, by simp [midnight], by simp [midnight], by simp [midnight]⟩ t1
      (fun r h => h) (by decide +kernel)
  · exact prints_date hrt hs (by decide) hx 3 rfl (t := x) hx.valid t3 (fun r h => h) (by decide +kernel)
  · exact prints_date hrt hs (by decide) hx 3 rfl (t := { midnight x.date with hour := 22 })
      ⟨v1, by simp, by simp [midnight], by simp [midnight]⟩ t2 (fun r h => h) (by decide +kernel)
  · intro y m d hn hc phrase hp
    have := c21_tomorrow rt hrt.stale integerWords ref x hx y m d hn (fun _ => hc.2.1) phrase hp
    have hv : (midnight (if x.hour = 0 then x.date else (y, m, d))).Valid := by
      refine ⟨?_, by simp [midnight], by simp [midnight], by simp [midnight]⟩
      split
      · exact v1
      · exact hc
    simp only [List.mem_cons, List.not_mem_nil, or_false] at hp
    rcases hp with rfl | rfl
    · exact prints_date hrt hs (by decide) hx 3 rfl hv this (fun r h => h) (by decide +kernel)
    · exact prints_date hrt hs (by decide) hx 3 rfl hv this (fun r h => h) (by decide +kernel)
  · intro y m d hn hc
    exact prints_date hrt hs (by decide) hx 3 rfl (t := { midnight (y, m, d) with hour := x.hour })
      ⟨hc, v2, by simp [midnight], by simp [midnight]⟩
      (c21_yesterday_last_night rt hrt.stale integerWords ref x hx y m d hc hn).1 (fun r h => h) (by decide +kernel)

/-- **C56 (holidays).** For every reference time the program prints for each holiday phrase (`mlk day`,
`independence day`, ...) the statutory day of the reference year at 00:00:00. -/
theorem c56_holidays (rt : Rt) (hrt : Rt.Defined rt) (sort : List PResult → List PResult) (hs : Sorts sort)
    (ref : PTime) (x : DateTime) (hx : RefReads ref x) :
    ∀ p ∈ statutory, ∃ m d, p.2 x.year m d ∧ mainRun rt sort p.1 ref = .ok (foundLine ++ (midnight (x.year, m, d)).format) := by
  intro p hp
  obtain ⟨m, d, h1, h2⟩ := c36_us_holidays rt hrt.stale integerWords ref x hx p hp
  obtain ⟨v1, -⟩ := id hx.valid
  have hlen : (statutory.all fun p => decide (p.1.length < 4294967296)) = true := by decide +kernel
  have hoth : (statutory.all fun p => othersShort 10 (toLower p.1)) = true := by decide +kernel
  have hc : CivilInRange x.year m d := by
    have hb : ∀ m d, 1 ≤ m → m ≤ 12 → 1 ≤ d → d ≤ 28 → CivilInRange x.year m d := by
      intro m d a b c e
      have := (monthLength_bounds x.year m a b)
      exact ⟨v1.1, v1.2.1, a, b, c, by omega⟩
    simp only [statutory, List.mem_cons, List.not_mem_nil, or_false] at hp
    rcases hp with rfl | rfl | rfl | rfl | rfl | rfl | rfl | rfl | rfl | rfl
    · obtain ⟨rfl, rfl⟩ := h1; exact hb _ _ (by decide) (by decide) (by decide) (by decide)
    · obtain ⟨rfl, rfl⟩ := h1; exact hb _ _ (by decide) (by decide) (by decide) (by decide)
    · obtain ⟨rfl, rfl⟩ := h1; exact hb _ _ (by decide) (by decide) (by decide) (by decide)
    all_goals
      obtain ⟨rfl, h1⟩ := h1
      exact ⟨v1.1, v1.2.1, h1.1⟩
  exact ⟨m, d, h1, prints_date hrt hs (by simpa using List.all_eq_true.1 hlen p hp) hx 10 rfl
    (t := midnight (x.year, m, d)) ⟨hc, by simp [midnight], by simp [midnight], by simp [midnight]⟩ h2 (fun r h => h)
    (List.all_eq_true.1 hoth p hp)⟩

/-! ## C56: phrases that do not work -/

/-- **C56 (refutation).** Weekday phrases and `christmas` are documented (README), but the program finds nothing in
them, for any reference time and any letter case. -/
theorem c56_not_found_refuted (rt : Rt) (sort : List PResult → List PResult) (hs : Sorts sort) (ref : PTime) :
    ∀ phrase ∈ [txt!"last friday", txt!"next tuesday", txt!"christmas", txt!"monday", txt!"this sunday", txt!"christmas day"],
    ∀ text, SameUpToCase text phrase → mainRun rt sort text ref = .ok invalidLine := by
  intro phrase hp text ht
  have e : ([txt!"last friday", txt!"next tuesday", txt!"christmas", txt!"monday", txt!"this sunday", txt!"christmas day"].all
    fun p => allSilent (toLower p)) = true := by decide +kernel
  refine prints_invalid hs ?_
  rw [toLower_same ht]
  exact List.all_eq_true.1 e phrase hp

/-- `N years ago`, `N days from now` and the like, `N` in one or two digits. -/
def agoText (short : Bool) (n : Nat) (unit : Text) : Text := hourText short n ++ txt!" " ++ unit

def agoUnits : List Text := [txt!"years ago", txt!"months ago", txt!"weeks ago", txt!"days ago", txt!"hours ago", txt!"minutes ago",
  txt!"seconds ago", txt!"years later", txt!"days later"]

theorem ago_checks : ([true, false].all fun short => agoUnits.all fun u =>
    checkSpans Ast.timeExpr (agoText short 11 u) (hourSpan short + 1) [(1, some (0, 0)), (2, some (0, hourSpan short)), (3, none), (4, none), (6, none), (7, none)] &&
    othersSilent 8 (agoText short 11 u)) = true := by decide +kernel

theorem toLower_ago {short : Bool} {n : Nat} {u : Text} (hu : u ∈ agoUnits) : toLower (agoText short n u) = agoText short n u := by
  have : agoUnits.all (fun s => toLower s == s) = true := by decide
  have h1 : toLower u = u := by simpa using List.all_eq_true.1 this u hu
  unfold agoText
  rw [toLower_append, toLower_append, toLower_hourText, h1]
  rfl

theorem ago_noZone {u abbr : Text} (hu : u ∈ agoUnits) : ¬ ZoneSuffix u abbr := by
  rintro ⟨bl, op, cl, h1, h2, h3, h4, -, h6, -⟩
  have hl : op.length ≤ 1 ∧ cl.length ≤ 1 := by
    constructor
    · rcases h3 with rfl | rfl <;> decide
    · rcases h4 with rfl | rfl <;> decide
  have e := congrArg List.length h1
  simp only [List.length_append] at e
  have : agoUnits.all (fun u => decide (8 ≤ u.length) && u.head?.all fun c => ! decide (Blank c)) = true := by decide
  have h5 := List.all_eq_true.1 this u hu
  simp only [Bool.and_eq_true, decide_eq_true_eq] at h5
  match bl, h2 with
  | [], _ => simp at e; omega
  | c :: bl, h2 =>
    rw [h1] at h5
    have := h5.2
    simp [h2 c (by simp)] at this

/-- **C56 (refutation).** `N years ago`, `N days later` and the like print the reference date at `N` o'clock: the program
reads the number as a clock time and never moves the date. -/
theorem c56_ago_and_later_refuted (rt : Rt) (hrt : Rt.Defined rt) (sort : List PResult → List PResult) (hs : Sorts sort)
    (ref : PTime) (x : DateTime) (hx : RefReads ref x) (short : Bool) (n : Nat) (hn : n < if short then 10 else 24) :
    ∀ u ∈ agoUnits, mainRun rt sort (agoText short n u) ref = .ok (foundLine ++ { midnight x.date with hour := n }.format) := by
  intro u hu
  have hc := List.all_eq_true.1 (List.all_eq_true.1 ago_checks short (by cases short <;> simp)) u hu
  rw [Bool.and_eq_true] at hc
  have hdr : List.Forall₂ DigitRel (agoText short n u) (agoText short 11 u) :=
    dr_append (dr_append (dr_hour short n) (dr_same _)) (dr_same _)
  obtain ⟨mt, hf, hst, h0, hg⟩ := foundSpans _ _ _ timeExpr_blind hc.1 hdr
  have hn24 : n < 24 := by cases short <;> simp at hn <;> omega
  have hlen : (hourText short n).length = hourSpan short := by cases short <;> rfl
  have g0 : mt.str 0 = hourText short n ++ txt!" " := by
    rw [h0]; unfold agoText
    have : (hourText short n ++ txt!" ").length = hourSpan short + 1 := by rw [List.length_append, hlen]; rfl
    rw [← this, List.take_left']
    rfl
  have g2 : mt.str 2 = hourText short n := by
    rw [hg (2, some (0, hourSpan short)) (by simp) (by simp)]
    unfold agoText
    cases short <;> rfl
  obtain ⟨res, he, e1, e2, e3, e4, e5, e6, e7, e8⟩ := clock_extract (rt := rt) (g := integerWords) (tx := agoText short n u) (idx := 0)
    (h := n) (mi := 0) (s := 0) (k := n) hx hf.start (hg (1, some (0, 0)) (by simp) (by simp))
    (by rw [g2]; exact hourOf_text (by cases short <;> simp at hn ⊢ <;> omega))
    (.inl ⟨hg (3, none) (by simp) (by simp), rfl, by omega⟩) (.inl ⟨hg (4, none) (by simp) (by simp), rfl⟩)
    (by omega) (by decide) (by decide) (.inl ⟨hg (6, none) (by simp) (by simp), rfl⟩) (hg (7, none) (by simp) (by simp))
  have hv := hx.valid
  obtain ⟨r, g, h1, h2, h3, h4⟩ := yields_of (Q := fun r => DateIs r.startDate x.date ∧ TimeIs r.startDate n 0 0 ∧ r.hasEnd = false ∧
      r.getTag .extractTZ = false) hrt.stale timeExpr_pattern timeExpr_min (toLower_ago hu) hf (pureExtract_ok he)
    (hasPossibleDates_of_year (by rw [e3.1]; have := hv.1.1; simp [DateTime.date]; omega)) e1 (e2.trans g0) ⟨e3, e4, e5, by
      have := (keeps_timeExpr (rt := rt) (g := integerWords) (tx := agoText short n u) (mt := mt) (ref := ref) (idx := 0) hrt.stops).of_ok he
      rcases this.2.2 .extractTZ with h | h
      · show (res.tags .extractTZ).getD false = false
        rw [h]; rfl
      · exact absurd h.1 (by decide)⟩
  have hz : ∀ abbr off, r.getTag .timeExpression = true → ¬ FollowedByZone (toLower (agoText short n u)) r abbr off := by
    rintro abbr off - ⟨-, hz, -⟩
    rw [toLower_ago hu] at hz
    unfold stop PResult.textLength at hz
    rw [h2, h3, Nat.zero_add] at hz
    unfold agoText at hz
    rw [List.drop_left'] at hz
    · exact ago_noZone hu hz
    · rfl
  rw [prints_single hs 8 (P := timeExprParser) rfl ⟨g, h1⟩ (by rw [toLower_ago hu]; exact othersSilent_sim hdr hc.2) hz]
  obtain ⟨⟨q1, q2, q3⟩, ⟨q4, q5, q6⟩, q7, q8⟩ := h4
  rw [c08_toDate_prints_start r { midnight x.date with hour := n } ⟨hv.1, hn24, by simp [midnight], by simp [midnight]⟩ ⟨q1, q2, q3, q4, q5, q6⟩ q7 q8]
  rfl

/-! ## C61: parts of the day and clock times -/

/-- **C61 (parts of the day).** For every reference time the program prints for each part of the day (but `noon`, see
`c58_noon_depends_on_sort`) the reference date at the hour of that part and the minute of the reference. -/
theorem c61_parts_of_the_day (rt : Rt) (hrt : Rt.Defined rt) (sort : List PResult → List PResult) (hs : Sorts sort)
    (ref : PTime) (x : DateTime) (hx : RefReads ref x) :
    ∀ p ∈ dayParts, p.1 ≠ txt!"noon" →
      mainRun rt sort p.1 ref = .ok (foundLine ++ { midnight x.date with hour := p.2, minute := x.minute }.format) := by
  intro p hp hne
  have hck : (dayParts.all fun p => p.1 == txt!"noon" || (othersShort 0 (toLower p.1) && decide (p.1.length < 4294967296) && decide (p.2 < 24))) = true := by
    decide +kernel
  have h1 := List.all_eq_true.1 hck p hp
  simp only [Bool.or_eq_true, beq_iff_eq, hne, false_or, Bool.and_eq_true, decide_eq_true_eq] at h1
  exact prints_date hrt hs h1.1.2 hx 0 rfl (t := { midnight x.date with hour := p.2, minute := x.minute })
    ⟨hx.valid.1, h1.2, hx.valid.2.2.1, by simp [midnight]⟩
    (c22_parts_of_the_day rt hrt.stale integerWords ref x hx p hp) (fun r h => ⟨h.1, h.2.1, h.2.2.1⟩) h1.1.1

theorem clock_othersShort : ([true, false].all fun short => [Tail.none, .minutes 11, .seconds 11 11].all fun t => suffixes.all fun s =>
    othersShort 8 (clockText short 11 t s.1) && decide ((clockText short 11 t s.1).length < 4294967296)) = true := by
  decide +kernel

/-- **C61 (clock times).** For every reference time and every written clock time (as in C33, hour below 24) the program
prints the reference date at that time. -/
theorem c61_clock_times (rt : Rt) (hrt : Rt.Defined rt) (sort : List PResult → List PResult) (hs : Sorts sort)
    (ref : PTime) (x : DateTime) (hx : RefReads ref x)
    (short : Bool) (h : Nat) (t : Tail) (s : Text × Option Bool) (hsf : s ∈ suffixes)
    (hh : h < 24) (h9 : short = true → h ≤ 9) (h12 : s.1 ≠ [] → h ≤ 12) (hmi : t.minute < 60) (hsec : t.second < 60) :
    mainRun rt sort (clockText short h t s.1) ref =
      .ok (foundLine ++ (DateTime.mk x.year x.month x.day (hour24 h s.2) t.minute t.second).format) := by
  have hc := List.all_eq_true.1 (List.all_eq_true.1 (List.all_eq_true.1 clock_othersShort short (by cases short <;> simp))
    t.ones (by cases t <;> simp [Tail.ones])) s hsf
  simp only [Bool.and_eq_true, decide_eq_true_eq] at hc
  have hdr := dr_clock short h t s.1
  have h24 : hour24 h s.2 < 24 := by
    unfold hour24
    rcases s.2 with _ | _ | _ <;> simp <;> omega
  exact prints_date hrt hs (by rw [hdr.length_eq]; exact hc.2) hx 8 rfl
    (t := ⟨x.year, x.month, x.day, hour24 h s.2, t.minute, t.second⟩) ⟨hx.valid.1, h24, hmi, hsec⟩
    (c33_clock_time rt hrt.stale integerWords ref x hx short h t s hsf (by omega) h9 h12 hmi hsec)
    (fun r h => ⟨h.1, h.2.1, h.2.2.1⟩) (by rw [toLower_clock hsf]; exact othersShort_sim hdr hc.1)

/-! ## Ties in the sort; concrete runs -/

/-- Two ways to sort by index: mentions at the same place keep their order, or are reversed. -/
def sortKeep (l : List PResult) : List PResult := l.insertionSort (fun a b => a.index ≤ b.index)
def sortReverse (l : List PResult) : List PResult := sortKeep l.reverse

theorem sortKeep_sorts : Sorts sortKeep := fun l =>
  ⟨List.perm_insertionSort _ l, List.pairwise_insertionSort (r := fun a b : PResult => a.index ≤ b.index) l⟩
theorem sortReverse_sorts : Sorts sortReverse := fun l =>
  ⟨(sortKeep_sorts l.reverse).1.trans l.reverse_perm, (sortKeep_sorts l.reverse).2⟩

def printed (o : Out Text) (t : Text) : Bool := match o with | .ok a => a == t | _ => false

theorem printed_ok {o : Out Text} {t : Text} (h : printed o t = true) : o = .ok t := by
  unfold printed at h
  split at h
  · rw [eq_of_beq h]
  · cases h

/-- **C58 (the hypothesis is needed).** For `noon` two parsers report the whole text, one with the minute of the
reference: 12:30 or 12:00 is printed, depending on the sort. -/
theorem c58_noon_depends_on_sort : ∃ (ref : PTime) (rt : Rt) (sort sort' : List PResult → List PResult), Sorts sort ∧ Sorts sort' ∧
    Rt.Defined rt ∧ mainRun rt sort txt!"noon" ref = .ok txt!"Date:\t2019-Mar-15 12:30:00" ∧
    mainRun rt sort' txt!"noon" ref = .ok txt!"Date:\t2019-Mar-15 12:00:00" := by
  refine ⟨⟨(dayNumber 2019 3 15 * 86400 + 1800) * 1000000⟩, Rt.usual 0, sortKeep, sortReverse, sortKeep_sorts, sortReverse_sorts,
    ⟨fun _ => rfl, ⟨0, rfl⟩, fun c => ⟨c, rfl⟩⟩, printed_ok (by decide +kernel), printed_ok (by decide +kernel)⟩

/-- Friday 15 March 2019, 00:30. -/
def exampleRef : PTime := ⟨(dayNumber 2019 3 15 * 86400 + 1800) * 1000000⟩

/-- The hypotheses of the theorems above are met, and the phrases are real ones. -/
example : (RefReads exampleRef ⟨2019, 3, 15, 0, 30, 0⟩) ∧ Sorts sortKeep ∧ Rt.Defined (Rt.usual 0) := by
  refine ⟨⟨?_, ?_, ?_, ?_⟩, sortKeep_sorts, ⟨fun _ => rfl, ⟨0, rfl⟩, fun c => ⟨c, rfl⟩⟩⟩ <;> decide +kernel
example : printed (mainRun (Rt.usual 0) sortKeep txt!"2020-02-29" exampleRef) txt!"Date:\t2020-Feb-29 00:00:00" = true := by decide +kernel
example : printed (mainRun (Rt.usual 0) sortKeep txt!"7 years ago" exampleRef) txt!"Date:\t2019-Mar-15 07:00:00" = true := by decide +kernel
example : printed (mainRun (Rt.usual 0) sortKeep txt!"Last Friday" exampleRef) invalidLine = true := by decide +kernel
example : agoText true 7 txt!"years ago" = txt!"7 years ago" := by decide
/-- C53: a run that finds nothing, one that finds something. -/
example : printed (mainRun (Rt.usual 0) sortKeep txt!"hello" exampleRef) invalidLine = true ∧
    printed (mainRun (Rt.usual 0) sortKeep txt!"labor day" exampleRef) txt!"Date:\t2019-Sep-02 00:00:00" = true := by decide +kernel

end Chrono.Props
