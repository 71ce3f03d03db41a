import Verif.Props.P45_DateAndTime
/-!
# C56: `N days from now`, the last of the phrases of the README
-/
namespace Chrono.Props
open Chrono Chrono.Spec Chrono.Boost

/-- Two mentions that are neither merged nor joined: the first is printed. -/
theorem prints_first {rt : Rt} {sort : List PResult → List PResult} {text : Text} {ref : PTime} {a b : PResult}
    (hna : NonEmpty a) (hnb : NonEmpty b) (hia : Inside (toLower text) a) (hib : Inside (toLower text) b) (hab : Before a b)
    (hrun : mainRun rt sort text ref = (do
      let rs ← tzRefine [a, b] (toLower text)
      let rs ← mdtRefine rs (toLower text)
      let rs ← mdrRefine rs (toLower text)
      printResult rs))
    (hza : ∀ abbr off, a.getTag .timeExpression = true → ¬ FollowedByZone (toLower text) a abbr off)
    (hzb : ∀ abbr off, b.getTag .timeExpression = true → ¬ FollowedByZone (toLower text) b abbr off)
    (hxa : a.getTag .extractTZ = false)
    (hta : isDateOnly a = false ∨ isTimeOnly b = false) (htb : isDateOnly b = false ∨ isTimeOnly a = false)
    (hea : a.hasEnd = false) (hj : ¬ Joined (toLower text) a b)
    {t : DateTime} (ht : t.Valid) (hra : Reads a.startDate t) :
    mainRun rt sort text ref = .ok (foundLine ++ t.format) := by
  obtain ⟨a', b', e, ⟨a1, a2, a3, a4, a5, a6⟩, ⟨b1, b2, b3, b4, b5, b6⟩⟩ := tz_two hza hzb
  have hsa : stop a' = stop a := by unfold stop PResult.textLength; rw [a1, a2]
  have hsb : stop b' = stop b := by unfold stop PResult.textLength; rw [b1, b2]
  have hna' : NonEmpty a' := by unfold NonEmpty PResult.textLength at *; rw [a2]; exact hna
  have hnb' : NonEmpty b' := by unfold NonEmpty PResult.textLength at *; rw [b2]; exact hnb
  have hia' : Inside (toLower text) a' := by unfold Inside at *; rw [hsa]; exact hia
  have hib' : Inside (toLower text) b' := by unfold Inside at *; rw [hsb]; exact hib
  have hab' : Before a' b' := by unfold Before at *; rw [hsa, b1]; exact hab
  have hj' : ¬ Joined (toLower text) a' b' := by unfold Joined at *; rw [hsa, b1]; exact hj
  have hst : mdtStep (toLower text) a' b' = .ok none := by
    have t1 : (isDateOnly a' && isTimeOnly b') = false := by
      unfold isDateOnly isTimeOnly at *; rw [a3, b3]
      rcases hta with h | h <;> rw [h] <;> simp
    have t2 : (isDateOnly b' && isTimeOnly a') = false := by
      unfold isDateOnly isTimeOnly at *; rw [a3, b3]
      rcases htb with h | h <;> rw [h] <;> simp
    unfold mdtStep
    rw [t1, t2]
    rfl
  have hmdt : mdtRefine [a', b'] (toLower text) = .ok [a', b'] := by
    unfold mdtRefine
    simp only [mdtLoop, hst, Out.bind_ok, nonEmpty_not_isEmpty hnb']
    rfl
  have hm := c52_last_replaced_by_previous_partial [] a' b' (toLower text) (by
    intro r hr
    simp only [List.nil_append, List.mem_cons, List.not_mem_nil, or_false] at hr
    rcases hr with rfl | rfl
    · exact ⟨hia', hna'⟩
    · exact ⟨hib', hnb'⟩) (by
    exact ⟨⟨hab', .inr (.inr hj')⟩, trivial⟩)
  simp only [List.nil_append] at hm
  rw [hrun, e]
  simp only [Out.bind_ok]
  rw [hmdt]
  simp only [Out.bind_ok]
  rw [hm]
  simp only [Out.bind_ok]
  have := c08_toDate_prints_start a' t ht (by rw [a3]; exact hra) (a4.trans hea) ((a6 _).trans hxa)
  simp [printResult, this, foundLine]

theorem casualDate_blind : Ast.casualDate.digitBlind = true := by decide +kernel

/-- The mention of `now` at `idx`. -/
def nowMention (ref : PTime) (x : DateTime) (idx : Nat) : PResult :=
  ((((PResult.mk' ref idx txt!"now").onStart (fun c => ((c.set .hour ref.hours).set .min ref.minutes).set .sec ref.seconds))).onStart
    (fun c => ((c.set .year x.year).set .month x.month).set .mday x.day)).setTag .casualDate

theorem now_extract {rt : Rt} {g : Globals} {tx : Text} {mt : Match} {ref : PTime} {x : DateTime} (hx : RefReads ref x) {idx : Nat}
    (h0 : mt.str 0 = txt!"now") : casualDateExtract rt g tx mt ref idx = .ok (nowMention ref x idx) := by
  obtain ⟨h1, h2, h3, -⟩ := Date.year_of_ymd hx.date
  have hs : searches true Pat.lastNight txt!"now" = .ok false := by decide +kernel
  unfold casualDateExtract
  simp only [h0]
  rw [hs, Out.bind_ok]
  have hd : casualDay (PResult.mk' ref idx txt!"now") txt!"now" ref false =
      ((PResult.mk' ref idx txt!"now").onStart (fun c => ((c.set .hour ref.hours).set .min ref.minutes).set .sec ref.seconds), ref) := by
    casual_cases
  rw [hd]
  simp only []
  rw [h1, h2, h3]
  rfl

theorem nowMention_ok {ref : PTime} {x : DateTime} (hx : RefReads ref x) {idx : Nat} (hidx : idx < 4294967296) :
    (nowMention ref x idx).hasPossibleDates = true ∧ (nowMention ref x idx).copy.index = idx ∧ (nowMention ref x idx).copy.text = txt!"now" ∧
    isDateOnly (nowMention ref x idx).copy = false ∧ isTimeOnly (nowMention ref x idx).copy = false ∧
    (∀ t, (nowMention ref x idx).copy.getTag t = true → t = .casualDate) := by
  have hy : (x.year : Int) ≠ 0 := by have := hx.valid.1.1; omega
  unfold nowMention
  refine ⟨hasPossibleDates_of_year (by simpa using hy), by simp [PResult.copy, PResult.mk', PResult.toU32]; omega, by simp [PResult.copy], ?_, ?_, ?_⟩
  · simp [PResult.copy, isDateOnly, Comps.certain, Comps.certainKey]
  · simp [PResult.copy, isTimeOnly, Comps.certain, Comps.certainKey]
  · intro t
    simp [PResult.copy, PResult.getTag, PResult.setTag]
    split
    · intro _; assumption
    · intro h; cases h

def fromNowUnits : List Text := [txt!"year", txt!"years", txt!"month", txt!"months", txt!"week", txt!"weeks", txt!"day", txt!"days",
  txt!"hour", txt!"hours", txt!"minute", txt!"minutes", txt!"second", txt!"seconds"]

/-- `N days from now`, `N` in one or two digits. -/
def fromNow (short : Bool) (n : Nat) (u : Text) : Text := hourText short n ++ txt!" " ++ (u ++ txt!" from now")

def fromNowCheck (short : Bool) (u : Text) : Bool :=
  let rep := fromNow short 11 u
  let p := hourSpan short + 7 + u.length
  checkSpans Ast.timeExpr rep (hourSpan short + 1) [(1, some (0, 0)), (2, some (0, hourSpan short)), (3, none), (4, none), (6, none), (7, none)] &&
  othersBeside [3, 8] (0, hourSpan short + 1) (p, 3) rep &&
  checkStep Ast.casualDate (rep.drop 0) p (p + 3) [] && (Ast.casualDate.search (rep.drop (p + 3))).isNone &&
  toLower u == u && decide (u.length < 20) && decide (3 ≤ u.length) && u.head?.all (fun c => ! decide (Blank c)) &&
  rangeWords.all (fun w => ! decide (w <:+: u ++ txt!" from "))

theorem fromNow_checks {u : Text} (hu : u ∈ fromNowUnits) (short : Bool) : fromNowCheck short u = true := by
  simp only [fromNowUnits, List.mem_cons, List.not_mem_nil, or_false] at hu
  cases short <;> rcases hu with rfl | rfl | rfl | rfl | rfl | rfl | rfl | rfl | rfl | rfl | rfl | rfl | rfl | rfl <;> decide +kernel

theorem noZone_long {rest abbr : Text} (hl : 8 ≤ rest.length) (hb : rest.head?.all (fun c => ! decide (Blank c)) = true) : ¬ ZoneSuffix rest abbr := by
  rintro ⟨bl, op, cl, h1, h2, h3, h4, -, h6, -⟩
  have hl : op.length ≤ 1 ∧ cl.length ≤ 1 := by
    constructor
    · rcases h3 with rfl | rfl <;> decide
    · rcases h4 with rfl | rfl <;> decide
  have e := congrArg List.length h1
  simp only [List.length_append] at e
  match bl, h2 with
  | [], _ => simp at e; omega
  | c :: bl, h2 =>
    rw [h1] at hb
    simp [h2 c (by simp)] at hb

theorem head_append {u v : Text} {p : Nat → Bool} (h : 0 < u.length) (h' : u.head?.all p = true) : (u ++ v).head?.all p = true := by
  cases u with
  | nil => simp at h
  | cons c u => exact h'

/-- **C56 (refutation).** `N days from now` and the like print the reference date at `N` o'clock: the program reads the number as a
clock time, `now` as a second date, and never moves the date. -/
theorem c56_from_now_refuted (rt : Rt) (hrt : Rt.Defined rt) (sort : List PResult → List PResult) (hs : Sorts sort)
    (ref : PTime) (x : DateTime) (hx : RefReads ref x) (short : Bool) (n : Nat) (hn : n < if short then 10 else 24) :
    ∀ u ∈ fromNowUnits, mainRun rt sort (fromNow short n u) ref = .ok (foundLine ++ { midnight x.date with hour := n }.format) := by
  intro u hu
  have hck := fromNow_checks hu short
  unfold fromNowCheck at hck
  simp only [Bool.and_eq_true, beq_iff_eq, decide_eq_true_eq] at hck
  obtain ⟨⟨⟨⟨⟨⟨⟨⟨c1, c2⟩, c3⟩, c4⟩, c5⟩, c6⟩, c7⟩, c8⟩, c9⟩ := hck
  have hdr : List.Forall₂ DigitRel (fromNow short n u) (fromNow short 11 u) :=
    dr_append (dr_append (dr_hour short n) (dr_same _)) (dr_same _)
  have hlow : toLower (fromNow short n u) = fromNow short n u := by
    unfold fromNow
    rw [toLower_append, toLower_append, toLower_append, toLower_hourText, c5]
    rfl
  obtain ⟨mt, hf, hst, h0, hg⟩ := foundSpans _ _ _ timeExpr_blind c1 hdr
  have hn24 : n < 24 := by cases short <;> simp at hn <;> omega
  have hlen : (hourText short n).length = hourSpan short := by cases short <;> rfl
  have hL : (fromNow short n u).length = hourSpan short + 10 + u.length := by
    unfold fromNow
    simp only [List.length_append, hlen]
    show hourSpan short + 1 + (u.length + 9) = _
    omega
  have hsp : hourSpan short ≤ 2 := by cases short <;> decide
  have g0 : mt.str 0 = hourText short n ++ txt!" " := by
    rw [h0]; unfold fromNow
    have : (hourText short n ++ txt!" ").length = hourSpan short + 1 := by rw [List.length_append, hlen]; rfl
    rw [← this, List.take_left']
    rfl
  have g2 : mt.str 2 = hourText short n := by
    rw [hg (2, some (0, hourSpan short)) (by simp) (by simp)]
    unfold fromNow
    cases short <;> rfl
  obtain ⟨res, he, e1, e2, e3, e4, e5, e6, e7, e8⟩ := clock_extract (rt := rt) (g := integerWords) (tx := fromNow short n u) (idx := 0)
    (h := n) (mi := 0) (s := 0) (k := n) hx hf.start (hg (1, some (0, 0)) (by simp) (by simp))
    (by rw [g2]; exact hourOf_text (by cases short <;> simp at hn ⊢ <;> omega))
    (.inl ⟨hg (3, none) (by simp) (by simp), rfl, by omega⟩) (.inl ⟨hg (4, none) (by simp) (by simp), rfl⟩)
    (by omega) (by decide) (by decide) (.inl ⟨hg (6, none) (by simp) (by simp), rfl⟩) (hg (7, none) (by simp) (by simp))
  have hv := hx.valid
  obtain ⟨r, g, h1, h2, h3, h4⟩ := yields_of (Q := fun r => DateIs r.startDate x.date ∧ TimeIs r.startDate n 0 0 ∧ r.hasEnd = false ∧
      r.getTag .extractTZ = false) hrt.stale timeExpr_pattern timeExpr_min hlow hf (pureExtract_ok he)
    (hasPossibleDates_of_year (by rw [e3.1]; have := hv.1.1; simp [DateTime.date]; omega)) e1 (e2.trans g0) ⟨e3, e4, e5, by
      have := (keeps_timeExpr (rt := rt) (g := integerWords) (tx := fromNow short n u) (mt := mt) (ref := ref) (idx := 0) hrt.stops).of_ok he
      rcases this.2.2 .extractTZ with h | h
      · show (res.tags .extractTZ).getD false = false
        rw [h]; rfl
      · exact absurd h.1 (by decide)⟩
  obtain ⟨⟨q1, q2, q3⟩, ⟨q4, q5, q6⟩, q7, q8⟩ := h4
  -- `now`
  obtain ⟨mt2, s2, a2, b2, z2, -⟩ := foundStep _ 0 _ _ _ casualDate_blind c3 hdr
  rw [List.drop_zero] at s2 z2
  have z2' : mt2.str 0 = txt!"now" := by
    rw [z2]
    have e : fromNow short n u = (hourText short n ++ txt!" " ++ u ++ txt!" from ") ++ txt!"now" := by
      unfold fromNow; simp
    have el : (hourText short n ++ txt!" " ++ u ++ txt!" from ").length = hourSpan short + 7 + u.length := by
      simp only [List.length_append, hlen]
      show hourSpan short + 1 + u.length + 6 = _
      omega
    rw [e, ← el]
    exact slice_append_right _ txt!"now" 0 3
  have hidx : hourSpan short + 7 + u.length < 4294967296 := by omega
  obtain ⟨n1, n2, n3, n4, n5, n6⟩ := nowMention_ok hx (idx := hourSpan short + 7 + u.length) hidx
  have hret : ParserReturns rt ref (fromNow short n u) casualDateParser [(nowMention ref x (hourSpan short + 7 + u.length)).copy] := by
    refine ⟨integerWords, execute_one hrt.stale casualDate_pattern casualDate_min (by rw [hlow]; exact s2) ?_ n1 ?_⟩
    · rw [a2]; exact pureExtract_ok (now_extract hx z2')
    · rw [hlow, b2]; exact foundEnd _ _ casualDate_blind c4 hdr
  generalize hb : (nowMention ref x (hourSpan short + 7 + u.length)).copy = b at *
  have lr : r.textLength = hourSpan short + 1 := by unfold PResult.textLength; rw [h3, List.length_append, hlen]; rfl
  have lb : b.textLength = 3 := by unfold PResult.textLength; rw [n3]; rfl
  have hbef : Before r b := by unfold Before stop; omega
  obtain ⟨r1, r2, r3, r4, r5⟩ := run_two hrt hs (text := fromNow short n u) (by omega) (ref := ref) (a := r) (b := b)
    ⟨timeExprParser, by simp [mainParsers], _, ⟨g, h1⟩, by simp⟩ ⟨casualDateParser, by simp [mainParsers], _, hret, by simp⟩ hbef
    (others_beside hrt (by omega) hx (own := [3, 8]) (by rw [hlow, h2, lr, n2, lb]; exact othersBeside_sim hdr c2) (by
      intro j hj P hP
      simp only [List.mem_cons, List.not_mem_nil, or_false] at hj
      rcases hj with rfl | rfl
      · have e : P = casualDateParser := (Option.some.inj hP).symm
        subst e
        refine ⟨_, hret, fun y hy => ?_⟩
        simp only [List.mem_cons, List.not_mem_nil, or_false] at hy
        exact .inr (.inl hy)
      · have e : P = timeExprParser := (Option.some.inj hP).symm
        subst e
        refine ⟨_, ⟨g, h1⟩, fun y hy => ?_⟩
        simp only [List.mem_cons, List.not_mem_nil, or_false] at hy
        exact .inl hy))
  have hdrop : (fromNow short n u).drop (stop r) = u ++ txt!" from now" := by
    unfold stop
    rw [h2, lr, Nat.zero_add]
    unfold fromNow
    rw [List.drop_left']
    rw [List.length_append, hlen]; rfl
  refine prints_first r1 r2 r3 r4 hbef r5 ?_ ?_ q8 (.inr n5) (.inl n4) q7 ?_ (t := { midnight x.date with hour := n })
    ⟨hv.1, hn24, by simp [midnight], by simp [midnight]⟩ ⟨q1, q2, q3, q4, q5, q6⟩
  · rintro abbr off - ⟨-, hz, -⟩
    rw [hlow, hdrop] at hz
    refine noZone_long ?_ ?_ hz
    · simp only [List.length_append]
      show 8 ≤ u.length + 9
      omega
    · exact head_append (by omega) c8
  · intro abbr off h
    exact absurd (n6 _ h) (by decide)
  · rintro ⟨w, hw, hi⟩
    rw [hlow] at hi
    unfold slice at hi
    rw [hdrop] at hi
    have e : b.index - stop r = (u ++ txt!" from ").length := by
      unfold stop
      rw [h2, lr, n2, List.length_append]
      show _ = u.length + 6
      omega
    rw [e, show u ++ txt!" from now" = (u ++ txt!" from ") ++ txt!"now" by simp, List.take_left'] at hi
    · have := List.all_eq_true.1 c9 w hw
      rw [Bool.not_eq_true', ← Bool.not_eq_true] at this
      exact this (decide_eq_true hi)
    · rfl

/-- `4 days from now` at 14:00 on 15 March 2019: the model itself, evaluated by the kernel. -/
example : fromNow true 4 txt!"days" = txt!"4 days from now" ∧
    printed (mainRun (Rt.usual 0) sortKeep txt!"4 days from now" exampleRef) txt!"Date:\t2019-Mar-15 04:00:00" = true := by
  constructor <;> decide +kernel

end Chrono.Props
