import Verif.Props.P45_DateAndTime
/-!
# C77: an ISO date and a clock time
-/
namespace Chrono.Props
open Chrono Chrono.Spec Chrono.Boost

theorem dr_isoClockText (y m d : Nat) (pre mid : Text) (short : Bool) (h : Nat) (t : Tail) (sfx : Text) :
    List.Forall₂ DigitRel (isoClockText y m d pre mid short h t sfx)
      (txt!"1111-11-11" ++ (pre ++ txt!" " ++ mid ++ clockText short 11 t.ones sfx)) :=
  dr_append dr_isoDate (dr_append (dr_same _) (dr_clock short h t sfx))

theorem isoClock_check {sep : Text × Text} (hsep : sep ∈ dtSeps) (short : Bool) (t : Tail) {s : Text × Option Bool} (hs : s ∈ suffixes) :
    isoClockCheck sep.1 sep.2 short t.ones s.1 = true :=
  List.all_eq_true.1 (List.all_eq_true.1 (isoClock_checks hsep hs) short (by cases short <;> simp)) t.ones (by cases t <;> simp [Tail.ones])

/-- No range word in a single character that is not a hyphen. -/
theorem noRangeWord {l l' : Text} (h : List.Forall₂ DigitRel l l') (hl : l'.length = 1) (hne : (l' != [45]) = true) :
    ∀ w ∈ rangeWords, ¬ w <:+: l := by
  intro w hw hi
  have h1 := forall₂_length h
  have h2 := hi.length_le
  simp only [rangeWords, List.mem_cons, List.not_mem_nil, or_false] at hw
  have hw' : w = txt!"-" := by
    rcases hw with rfl | rfl | rfl | rfl
    · simp at h2; omega
    · simp at h2; omega
    · simp at h2; omega
    · rfl
  subst hw'
  have hl1 : l = [45] := (hi.eq_of_length (by simp; omega)).symm
  subst hl1
  cases h with
  | cons hc ht =>
    cases ht
    rcases hc with rfl | ⟨hc, -⟩
    · simp at hne
    · simp [isDigitB] at hc

/-- A clock time after a blank, not at the beginning of the text: what is extracted. `U` is everything before the time, the match
begins at the blank at `p`. -/
theorem clock_at {rt : Rt} {g : Globals} {U : Text} {ref : PTime} {x : DateTime} {idx : Nat} (hx : RefReads ref x) {short : Bool} {h : Nat} {t : Tail}
    {s : Text × Option Bool} (hsf : s ∈ suffixes) (hh : h ≤ 24) (h9 : short = true → h ≤ 9) (h12 : s.1 ≠ [] → h ≤ 12) (hmi : t.minute < 60)
    (hsec : t.second < 60) {mt : Match} {p : Nat} (hp : 1 ≤ p) (hpU : p + 1 ≤ U.length) (u2 : mt.start = p)
    (u4 : mt.str 0 = slice (U ++ clockText short h t s.1) p (U.length + (clockText short 11 t.ones s.1).length))
    (u5 : ∀ x ∈ (1, some (p, p + 1)) :: shiftSpans U.length ((clockSpans short t.ones s.1).drop 1),
      x.1 ≠ 0 → mt.str x.1 = spanText (U ++ clockText short h t s.1) x.2) :
    ∃ res, timeExprExtract rt g (U ++ clockText short h t s.1) mt ref idx = .ok res ∧ res.index = PResult.toU32 idx ∧
      res.text = U.drop (p + 1) ++ clockText short h t s.1 ∧
      DateIs res.startDate x.date ∧ TimeIs res.startDate (hour24 h s.2) t.minute t.second ∧ res.hasEnd = false ∧ res.startDate.certain .hour = true ∧
      res.startDate.certain .year = false ∧ res.getTag .timeExpression = true ∧ isTimeOnly res = true := by
  have hclk : (clockText short 11 t.ones s.1).length = (clockText short h t s.1).length := (dr_clock short h t s.1).length_eq.symm
  have sh : ∀ a b, slice (U ++ clockText short h t s.1) (U.length + a) (U.length + b) = slice (clockText short h t s.1) a b :=
    slice_append_right U _
  have hg : ∀ n o, (n, o) ∈ (clockSpans short t.ones s.1).drop 1 → n ≠ 0 → mt.str n = spanText (clockText short h t s.1) o := by
    intro n o hm hn
    have := u5 (n, o.map fun p => (U.length + p.1, U.length + p.2)) (List.mem_cons_of_mem _ (by
      unfold shiftSpans
      exact List.mem_map.2 ⟨(n, o), hm, rfl⟩)) hn
    simp only at this
    rw [this]
    cases o with
    | none => rfl
    | some q => exact sh q.1 q.2
  have g1 : mt.str 1 = slice (U ++ clockText short h t s.1) p (p + 1) := u5 (1, some (p, p + 1)) (by simp) (by simp)
  have g2 : mt.str 2 = hourText short h := by
    rw [hg 2 (some (0, hourSpan short)) (by simp [clockSpans]) (by simp)]
    cases short <;> cases t <;> rfl
  have g3 : mt.str 3 = (match t with | .none => [] | .minutes mi => two mi | .seconds mi _ => two mi) := by
    cases t with
    | none => exact hg 3 none (by simp [clockSpans, Tail.ones]) (by decide)
    | minutes mi =>
      rw [hg 3 (some (hourSpan short + 1, hourSpan short + 3)) (by simp [clockSpans, Tail.ones]) (by simp)]
      cases short <;> rfl
    | seconds mi s =>
      rw [hg 3 (some (hourSpan short + 1, hourSpan short + 3)) (by simp [clockSpans, Tail.ones]) (by simp)]
      cases short <;> rfl
  have g4 : mt.str 4 = (match t with | .seconds _ s => two s | _ => []) := by
    cases t with
    | none => exact hg 4 none (by simp [clockSpans, Tail.ones]) (by decide)
    | minutes mi => exact hg 4 none (by simp [clockSpans, Tail.ones]) (by decide)
    | seconds mi s =>
      rw [hg 4 (some (hourSpan short + 4, hourSpan short + 6)) (by simp [clockSpans, Tail.ones]) (by simp)]
      cases short <;> rfl
  have g6 : mt.str 6 = (match s.1 with | 32 :: w => w | w => w) := by
    rw [hg 6 _ (by
      simp only [clockSpans, List.drop_succ_cons, List.drop_zero, List.mem_cons, Prod.mk.injEq, List.not_mem_nil, or_false]
      exact .inr (.inr (.inr (.inl ⟨trivial, rfl⟩)))) (by simp)]
    simp only [suffixes, List.mem_cons, List.not_mem_nil, or_false] at hsf
    rcases hsf with rfl | rfl | rfl | rfl | rfl | rfl | rfl | rfl | rfl | rfl | rfl | rfl <;> cases short <;> cases t <;> rfl
  have g7 : mt.str 7 = [] := hg 7 none (by simp [clockSpans]) (by decide)
  have hb : h < (if short then 10 else 100) := by
    cases short
    · simp; omega
    · simp; have := h9 rfl; omega
  have l1 : mt.lengthOf 1 = 1 := by
    unfold Match.lengthOf
    rw [g1, slice_length (by rw [List.length_append]; omega)]; omega
  have e0 : mt.str 0 = (U ++ clockText short h t s.1).drop p := by
    rw [u4, hclk]
    unfold slice
    rw [List.take_of_length_le]
    rw [List.length_drop, List.length_append]
  have hsub : substr (mt.str 0) (mt.lengthOf 1) = .ok (U.drop (p + 1) ++ clockText short h t s.1) := by
    unfold substr
    rw [l1, e0, if_pos (by rw [List.length_drop, List.length_append]; omega), List.drop_drop, List.drop_append_of_le_length hpU]
  have hpw : precededByWord mt (U ++ clockText short h t s.1) = .ok false :=
    precededByWord_inside (by omega) (by rw [List.length_append]; omega)
  have hm : minuteOf (h : Int) (mt.str 3) = .ok ((h : Int), (t.minute : Int)) := by
    unfold minuteOf
    rw [g3]
    cases t with
    | none => 
      simp only [List.isEmpty_nil, Bool.not_true, Bool.false_eq_true, if_false]
      rw [if_neg (by omega)]; rfl
    | minutes mi =>
      have hmi' : mi < 60 := hmi
      rw [if_pos (show (!(two mi).isEmpty) = true from rfl), stoi_two (by omega)]; rfl
    | seconds mi s =>
      have hmi' : mi < 60 := hmi
      rw [if_pos (show (!(two mi).isEmpty) = true from rfl), stoi_two (by omega)]; rfl
  refine clock_extract_at hx hpw hsub (by rw [g2]; exact hourOf_text hb) hm ?_ hh hmi hsec (suffix_hour hsf h12 g6 |>.imp id id) g7
  rw [g4]
  cases t with
  | none => exact .inl ⟨rfl, rfl⟩
  | minutes mi => exact .inl ⟨rfl, rfl⟩
  | seconds mi s =>
    have hs' : s < 60 := hsec
    exact .inr ⟨by simp [two], stoi_two (by omega)⟩

/-- **C77.** For every civil date of the years 1400 to 9999 and every written clock time (with ` `, ` at ` or `, ` between them), such
as `2019-03-05 9:30`, `2019-03-05 at 9 pm`, `2019-03-05, 17:30:15`, the program prints that date at that time - whatever the reference time. -/
theorem c77_iso_date_with_clock_partial (rt : Rt) (hrt : Rt.Defined rt) (sort : List PResult → List PResult) (hs : Sorts sort)
    (ref : PTime) (x : DateTime) (hx : RefReads ref x) (y m d : Nat) (hc : CivilInRange y m d) (sep : Text × Text) (hsep : sep ∈ dtSeps)
    (short : Bool) (h : Nat) (t : Tail) (s : Text × Option Bool) (hsf : s ∈ suffixes)
    (hh : h < 24) (h9 : short = true → h ≤ 9) (h12 : s.1 ≠ [] → h ≤ 12) (hmi : t.minute < 60) (hsec : t.second < 60) :
    mainRun rt sort (isoDate y m d ++ (sep.1 ++ txt!" " ++ sep.2 ++ clockText short h t s.1)) ref =
      .ok (foundLine ++ (DateTime.mk y m d (hour24 h s.2) t.minute t.second).format) := by
  have hck := isoClock_check hsep short t hsf
  obtain ⟨pre, mid⟩ := sep
  simp only at hck
  unfold isoClockCheck at hck
  simp only [Bool.and_eq_true, beq_iff_eq, decide_eq_true_eq] at hck
  obtain ⟨⟨⟨⟨⟨⟨⟨⟨c1, c2⟩, c3⟩, c4⟩, c5⟩, c6⟩, c7⟩, c8⟩, c9⟩ := hck
  have hdr := dr_isoClockText y m d pre mid short h t s.1
  have hclk : (clockText short 11 t.ones s.1).length = (clockText short h t s.1).length := (dr_clock short h t s.1).length_eq.symm
  have hlow : toLower (isoClockText y m d pre mid short h t s.1) = isoClockText y m d pre mid short h t s.1 := by
    unfold isoClockText
    rw [toLower_append, toLower_append, toLower_isoDate, c7, toLower_clock hsf]
  obtain ⟨mi1, i1, i2, i3, i4, i5⟩ := foundStep _ 0 _ _ _ iso_blind c2 hdr
  obtain ⟨mt1, s1, s2, s3, s4, s5⟩ := foundStep _ 0 _ _ _ timeExpr_blind c4 hdr
  obtain ⟨mt2, u1, u2, u3, u4, u5⟩ := foundStep _ 7 _ _ _ timeExpr_blind c5 hdr
  rw [List.drop_zero] at i1 i4 i5 s1 s4 s5
  obtain ⟨U, hU, hUl, hUd, hUt⟩ : ∃ U : Text, (isoClockText y m d pre mid short h t s.1).drop 7 = U ++ clockText short h t s.1 ∧
      U.length = 3 + pre.length + 1 + mid.length ∧ U.drop (3 + pre.length + 1) = mid ∧ True := by
    refine ⟨(isoDate y m d).drop 7 ++ (pre ++ txt!" " ++ mid), ?_, ?_, ?_, trivial⟩
    · unfold isoClockText
      rw [List.drop_append_of_le_length (by rw [isoDate_length]; omega)]
      simp only [List.append_assoc]
    · simp only [List.length_append, List.length_drop, isoDate_length, List.length_cons, List.length_nil]; omega
    · rw [← List.append_assoc, List.drop_append, List.drop_of_length_le (by
        simp only [List.length_append, List.length_drop, isoDate_length, List.length_cons, List.length_nil]; omega)]
      simp only [List.length_append, List.length_drop, isoDate_length, List.length_cons, List.length_nil]
      rw [show 3 + pre.length + 1 - (10 - 7 + (pre.length + (0 + 1))) = 0 by omega]
      rfl
  have hL : (isoClockText y m d pre mid short h t s.1).length = 10 + (pre.length + 1 + mid.length + (clockText short h t s.1).length) := by
    unfold isoClockText; simp only [List.length_append, isoDate_length, List.length_cons, List.length_nil]
  have hlen : (isoClockText y m d pre mid short h t s.1).length < 100 := by rw [forall₂_length hdr]; exact c8
  rw [hU] at u1 u4 u5
  rw [← hUl] at u3 u4 u5
  obtain ⟨res, hres, r1, r2, r3, r4, r5, r6, -, r8, r9⟩ := clock_at (rt := rt) (g := integerWords) (U := U) (ref := ref) (idx := 7 + (3 + pre.length)) hx
    (short := short) (h := h) (t := t) hsf (by omega) h9 h12 hmi hsec (by omega) (by omega) u2 u4 u5
  have hexg : ∀ g, timeExprParser.extract rt g (U ++ clockText short h t s.1) mt2 ref (7 + (3 + pre.length)) = .ok (res, g) :=
    fun g => pureExtract_ok hres
  rw [hUd] at r2
  have hpd : res.hasPossibleDates = true := by
    refine hasPossibleDates_of_year ?_
    rw [r3.1]
    have := hx.valid.1.1
    simp only [DateTime.date]
    omega
  -- what the clock-time parser returns
  obtain ⟨rs, hrs⟩ := clock_returns hrt hx (isoClockText y m d pre mid short h t s.1)
  obtain ⟨hbm, hbo⟩ := second_returns hrt.stale hrt.stops timeExpr_pattern timeExpr_min timeExpr_exact (by omega) hrs (mt1 := mt1) (mt2 := mt2) (b := res)
    (by rw [hlow]; exact s1) (by rw [hlow, s3, hU]; exact u1) (by rw [hlow, s3, hU, u2]; exact hexg) hpd
    (by rw [hlow, s3, u3, hUl]; exact foundEnd _ _ timeExpr_blind c6 hdr)
  have l1 : mt1.lengthOf 1 = 0 := by
    unfold Match.lengthOf
    rw [s5 (1, some (0, 0)) (by simp) (by simp)]
    simp [spanText, slice]
  -- what the ISO parser returns
  have e2 : mi1.str 2 = four y := (i5 (2, some (0, 4)) (by simp) (by decide)).trans (by rfl)
  have e3 : mi1.str 3 = two m := (i5 (3, some (5, 7)) (by simp) (by decide)).trans (by rfl)
  have e4 : mi1.str 4 = two d := (i5 (4, some (8, 10)) (by simp) (by decide)).trans (by rfl)
  have e5 : mi1.str 5 = [] := i5 (5, none) (by simp) (by decide)
  have e0 : mi1.str 0 = isoDate y m d := i4.trans (by rfl)
  obtain ⟨q1, q2, q3, q4, q5, q6⟩ := id hc
  have ql := monthLength_bounds y m q3 q4
  have xi := iso_date_extract (rt := rt) (g := integerWords) (tx := isoClockText y m d pre mid short h t s.1) (mt := mi1) (ref := ref) (idx := mi1.start)
    q3 q4 q5 (by omega) (by rw [e2]; exact stoi_four (by omega)) (by rw [e3]; exact stoi_two (by omega)) (by rw [e4]; exact stoi_two (by omega)) e5
  rw [i2, e0] at xi
  obtain ⟨m0, m1, m2, m3, m4, m5, m6⟩ := isoMention_ok (ref := ref) (idx := 0) (y := y) (m := m) (d := d) (by omega) (by omega)
  have hiso : ParserReturns rt ref (isoClockText y m d pre mid short h t s.1) isoParser [(isoMention ref 0 y m d).copy] := by
    refine ⟨integerWords, execute_one (mt := mi1) hrt.stale iso_pattern iso_min (by rw [hlow]; exact i1) ?_ m0 ?_⟩
    · rw [hlow, i2]; exact pureExtract_ok xi
    · rw [hlow, i3]; exact foundEnd _ _ iso_blind c3 hdr
  have hno : NoTime (isoMention ref 0 y m d).copy.startDate := by
    unfold isoMention NoTime
    simp [PResult.copy, Comps.certain, Comps.certainKey]
  have hm4 : DateIs (isoMention ref 0 y m d).copy.startDate (y, m, d) := ⟨m4.1, m4.2.1, m4.2.2.1⟩
  generalize ha : (isoMention ref 0 y m d).copy = a at *
  have b1 : res.copy.index = 10 + pre.length := by
    show res.index = _
    rw [r1]; unfold PResult.toU32; omega
  have b2 : res.copy.textLength = mid.length + (clockText short h t s.1).length := by
    show res.text.length = _
    rw [r2, List.length_append]
  have b3 : TimeIs res.copy.startDate (hour24 h s.2) t.minute t.second := r4
  have b4 : res.copy.hasEnd = false := r5
  have b5 : isTimeOnly res.copy = true := r9
  have b6 : isDateOnly res.copy = false := by
    show (!res.startDate.certain .hour) = false
    rw [r6]; rfl
  have b7 : res.copy.getTag .extractTZ = false := by
    rw [← Bool.not_eq_true]
    intro hcon
    obtain ⟨g, hg⟩ := hrs
    have hh := c59_no_foreign_tag_partial rt hrt.stale hrt.stops integerWords g (isoClockText y m d pre mid short h t s.1) ref rs
    have := hh.1 timeExprParser .timeExpression (by simp [parserTags]) hg res.copy hbm _ hcon
    cases this
  have la : a.textLength = 10 := by unfold PResult.textLength; rw [m2, isoDate_length]
  have hbef : Before a res.copy := by unfold Before stop; omega
  obtain ⟨v1, v2, v3, v4, v5⟩ := run_two hrt hs (text := isoClockText y m d pre mid short h t s.1) (by omega) (ref := ref) (a := a) (b := res.copy)
    ⟨isoParser, by simp [mainParsers], _, hiso, by simp⟩ ⟨timeExprParser, by simp [mainParsers], _, hrs, hbm⟩ hbef
    (others_beside hrt (by omega) hx (own := [8, 9]) (by
        rw [hlow, m1, la, b1, b2]
        have := othersBeside_sim hdr c1
        rw [hclk, show 7 + (3 + pre.length) = 10 + pre.length by omega] at this
        exact this) (by
      intro j hj P hP
      simp only [List.mem_cons, List.not_mem_nil, or_false] at hj
      rcases hj with rfl | rfl
      · have e : P = timeExprParser := (Option.some.inj hP).symm
        subst e
        refine ⟨_, hrs, fun x hx => ?_⟩
        rcases hbo x hx with h | ⟨h1, h2⟩
        · exact .inr (.inl h)
        · have hln : mt1.length = 7 := by unfold Match.length; omega
          rw [l1, hln] at h2
          rw [s2] at h1
          have h2 : x.textLength = 7 := h2
          refine .inr (.inr ⟨.inl ?_, fun _ => by omega, fun ho => ?_⟩)
          · unfold Overlap stop; omega
          · unfold Overlap stop at ho; omega
      · have e : P = isoParser := (Option.some.inj hP).symm
        subst e
        refine ⟨_, hiso, fun x hx => ?_⟩
        simp only [List.mem_cons, List.not_mem_nil, or_false] at hx
        exact .inl hx))
  have hst : stop res.copy + 1 = (isoClockText y m d pre mid short h t s.1).length := by
    unfold stop; omega
  have h24 : hour24 h s.2 < 24 := by
    unfold hour24
    rcases s.2 with _ | _ | _ <;> simp <;> omega
  refine prints_date_time (text := isoClockText y m d pre mid short h t s.1) (a := a) (b := res.copy) (d := a) (t := res.copy) v1 v2 v3 v4 hbef v5
    (fun _ _ h => ?_) (fun abbr off _ => noZone_short (by rw [hlow]; omega)) ?_ ?_ b7 m3 b4 (.inl ⟨rfl, rfl⟩) hno m5 b5 b6 hm4 b3
    ⟨hc, h24, hmi, hsec⟩
  · exact absurd (m6 _ h) (by decide)
  · rw [hlow]
    refine noRangeWord (forall₂_drop hdr (stop res.copy)) ?_ ?_
    · rw [List.length_drop, ← forall₂_length hdr]; omega
    · have : stop res.copy = (txt!"1111-11-11" ++ (pre ++ txt!" " ++ mid ++ clockText short 11 t.ones s.1)).length - 1 := by
        rw [← forall₂_length hdr]; omega
      rw [this]; exact c9
  · cases hh : a.getTag .extractTZ with
    | false => rfl
    | true => exact absurd (m6 _ hh) (by decide)

/-- The theorem on concrete texts: the model itself, evaluated by the kernel, prints this. -/
example : printed (mainRun (Rt.usual 0) sortKeep txt!"2019-04-05 at 9:30 pm" exampleRef) txt!"Date:\t2019-Apr-05 21:30:00" = true := by decide +kernel

/-- C77 is false of the code after "tomorrow" (and "yesterday", "tmr"): the mention takes the blank with it, the time's
mention begins at that blank, so the two overlap and the shorter one is dropped. "tomorrow 9pm" loses the time, and
"tomorrow at 10:30 am", where the time is the longer one, loses the date. -/
theorem c77_tomorrow_with_clock_refuted :
    printed (mainRun (Rt.usual 0) sortKeep txt!"tomorrow 9pm" noonRef) txt!"Date:\t2019-Mar-16 00:00:00" = true ∧
    printed (mainRun (Rt.usual 0) sortKeep txt!"tomorrow at 10:30 am" noonRef) txt!"Date:\t2019-Mar-15 10:30:00" = true := by
  constructor <;> decide +kernel

end Chrono.Props
