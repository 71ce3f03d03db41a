import Verif.Props.P46_IsoDateTime
import Verif.Props.P53_FromNow
/-!
# C77: a date in words with a time of day
-/
namespace Chrono.Props
open Chrono Chrono.Spec Chrono.Boost

/-- A parser whose results are determined by the matched text alone (the casual-date and the holiday parser). -/
structure ByText (P : Parser) (r : Re) (ex : Rt → Globals → Text → Match → PTime → Nat → Out PResult) : Prop where
  pattern : P.pattern = some r
  min : 1 ≤ r.minLen
  blind : r.digitBlind = true
  extract : P.extract = pureExtract ex
  text : ∀ rt g tx mt g' tx' mt' ref idx, mt.str 0 = mt'.str 0 → ex rt g tx mt ref idx = ex rt g' tx' mt' ref idx

theorem byText_casual : ByText casualDateParser Ast.casualDate casualDateExtract :=
  ⟨casualDate_pattern, casualDate_min, casualDate_blind, rfl, by
    intro rt g tx mt g' tx' mt' ref idx h
    unfold casualDateExtract
    simp only [h]⟩

theorem holiday_blind : Ast.holiday.digitBlind = true := by decide +kernel

theorem byText_holiday : ByText holidayParser Ast.holiday holidayExtract :=
  ⟨holiday_pattern, holiday_min, holiday_blind, rfl, by
    intro rt g tx mt g' tx' mt' ref idx h
    unfold holidayExtract
    simp only [h]⟩

/-- What such a parser makes of a phrase standing alone is what it makes of every match with the text of that phrase. -/
theorem ByText.alone {P : Parser} {r : Re} {ex : Rt → Globals → Text → Match → PTime → Nat → Out PResult} (hP : ByText P r ex) {rt : Rt} (hrt : rt.Benign)
    {D : Text} {ref : PTime} {Q : PResult → Prop} (hlow : toLower D = D)
    (hD : checkAt0 r D [(0, D)] = true) (hy : Yields (execute rt P integerWords D ref) D Q) :
    ∃ res, (∀ g tx mt, mt.str 0 = D → ex rt g tx mt ref 0 = .ok res) ∧ res.hasPossibleDates = true ∧ res.copy.index = 0 ∧ res.copy.text = D ∧ Q res.copy := by
  obtain ⟨mt, hf, hg⟩ := foundAt0 (r := r) [(0, D)] hD
  obtain ⟨q, g', ho, h1, h2, h3⟩ := hy
  have hsc := execute_scan hrt hP.pattern hP.min integerWords D ref
  rw [ho, hlow] at hsc
  generalize hgen : (Out.ok ([q], g') : Out (List PResult × Globals)) = o at hsc
  cases hsc with
  | done hs => simp at hgen
  | fail hs hx =>
    rw [eq_comm] at hgen
    obtain ⟨y, hy, -⟩ := Out.bind_eq_ok.1 hgen
    exact absurd hy (hx y)
  | @step _ _ mt' res g1 out hs hx hrest =>
    rw [List.drop_zero, hf.first] at hs
    cases hs
    rw [Nat.zero_add] at hrest
    have e := hrest.unique (.done hf.again)
    rw [e] at hgen
    simp only [Out.bind_ok, Out.ok.injEq, Prod.mk.injEq] at hgen
    have hp : res.hasPossibleDates = true := by
      cases h : res.hasPossibleDates with
      | true => rfl
      | false => rw [h] at hgen; simp at hgen
    rw [hp] at hgen
    simp only [if_true, List.cons.injEq] at hgen
    rw [hP.extract, hf.start, List.drop_zero] at hx
    have hx' : ex rt integerWords D mt ref 0 = .ok res := by
      unfold pureExtract at hx
      obtain ⟨z, hz, hx⟩ := Out.bind_eq_ok.1 hx
      simp only [Out.pure_eq, Out.ok.injEq, Prod.mk.injEq] at hx
      rw [hz, hx.1]
    have e0 : mt.str 0 = D := hg (0, D) (by simp)
    refine ⟨res, fun g tx m hm => ?_, hp, ?_, ?_, ?_⟩
    · rw [← hx']; exact hP.text _ _ _ _ _ _ _ _ _ (hm.trans e0.symm)
    · rw [← hgen.1.1]; exact h1
    · rw [← hgen.1.1]; exact h2
    · rw [← hgen.1.1]; exact h3

/-- A phrase followed by a clock time: `today at 9:30`, `labor day, 9 pm`. -/
def wordClockText (D pre mid : Text) (short : Bool) (h : Nat) (t : Tail) (sfx : Text) : Text :=
  D ++ (pre ++ txt!" " ++ mid ++ clockText short h t sfx)

def wordClockCheck (i : Nat) (r : Re) (D pre mid : Text) (short : Bool) (t : Tail) (sfx : Text) : Bool :=
  let clock := clockText short 11 t sfx
  let rep := D ++ (pre ++ txt!" " ++ mid ++ clock)
  let p := D.length + pre.length
  let q := p + 1 + mid.length
  othersBeside [i, 8] (0, D.length) (p, mid.length + clock.length) rep &&
  checkStep r (rep.drop 0) 0 D.length [] && (r.search (rep.drop D.length)).isNone &&
  checkStep Ast.timeExpr (rep.drop 0) p (q + clock.length) ((1, some (p, p + 1)) :: shiftSpans q ((clockSpans short t sfx).drop 1)) &&
  (Ast.timeExpr.search (rep.drop (q + clock.length))).isNone &&
  toLower (pre ++ txt!" " ++ mid) == pre ++ txt!" " ++ mid && decide (rep.length < 100) && rep.drop (rep.length - 1) != [45]

def wordClockChecks (i : Nat) (r : Re) (D pre mid : Text) (sfx : Text) : Bool :=
  [true, false].all fun short => [Tail.none, .minutes 11, .seconds 11 11].all fun t => wordClockCheck i r D pre mid short t sfx

theorem wordClock_run {i : Nat} {P : Parser} {r : Re} {ex : Rt → Globals → Text → Match → PTime → Nat → Out PResult} (hP : ByText P r ex)
    (hi : mainParsers[i]? = some P) (hi8 : i ≠ 8) {D pre mid : Text} (hlowD : toLower D = D) (hne : 0 < D.length)
    {rt : Rt} (hrt : Rt.Defined rt) {sort : List PResult → List PResult} (hs : Sorts sort) {ref : PTime} {x : DateTime} (hx : RefReads ref x)
    {a0 : PResult} (ha1 : ∀ g tx mt, mt.str 0 = D → ex rt g tx mt ref 0 = .ok a0) (ha2 : a0.hasPossibleDates = true) (ha3 : a0.copy.index = 0)
    (ha4 : a0.copy.text = D)
    (short : Bool) (h : Nat) (t : Tail) (s : Text × Option Bool) (hsf : s ∈ suffixes) (hck : wordClockChecks i r D pre mid s.1 = true)
    (hh : h < 24) (h9 : short = true → h ≤ 9) (h12 : s.1 ≠ [] → h ≤ 12) (hmi : t.minute < 60) (hsec : t.second < 60) :
    ∃ T, T = wordClockText D pre mid short h t s.1 ∧ toLower T = T ∧ T.length < 100 ∧ T = D ++ (pre ++ txt!" " ++ mid ++ clockText short h t s.1) ∧
    (∃ rs, ParserReturns rt ref T P rs ∧ a0.copy ∈ rs) ∧
    ∃ b : PResult, b.index = D.length + pre.length ∧ stop b + 1 = T.length ∧
    TimeIs b.startDate (hour24 h s.2) t.minute t.second ∧ b.hasEnd = false ∧ isTimeOnly b = true ∧ isDateOnly b = false ∧ b.getTag .extractTZ = false ∧
    Before a0.copy b ∧ NonEmpty a0.copy ∧ NonEmpty b ∧ Inside T a0.copy ∧ Inside T b ∧
    (∀ w ∈ rangeWords, ¬ w <:+: T.drop (stop b)) ∧ hour24 h s.2 < 24 ∧
    mainRun rt sort T ref = (do
      let rs ← tzRefine [a0.copy, b] T
      let rs ← mdtRefine rs T
      let rs ← mdrRefine rs T
      printResult rs) := by
  have hck : wordClockCheck i r D pre mid short t.ones s.1 = true := by
    unfold wordClockChecks at hck
    have h2 := List.all_eq_true.1 hck short (by cases short <;> simp)
    exact List.all_eq_true.1 h2 t.ones (by cases t <;> simp [Tail.ones])
  unfold wordClockCheck at hck
  simp only [Bool.and_eq_true, beq_iff_eq, decide_eq_true_eq] at hck
  obtain ⟨⟨⟨⟨⟨⟨⟨c1, c2⟩, c3⟩, c4⟩, c6⟩, c7⟩, c8⟩, c9⟩ := hck
  have hdr : List.Forall₂ DigitRel (wordClockText D pre mid short h t s.1) (D ++ (pre ++ txt!" " ++ mid ++ clockText short 11 t.ones s.1)) :=
    dr_append (dr_same _) (dr_append (dr_same _) (dr_clock short h t s.1))
  have hclk : (clockText short 11 t.ones s.1).length = (clockText short h t s.1).length := (dr_clock short h t s.1).length_eq.symm
  have hlow : toLower (wordClockText D pre mid short h t s.1) = wordClockText D pre mid short h t s.1 := by
    unfold wordClockText
    rw [toLower_append, toLower_append, hlowD, c7, toLower_clock hsf]
  obtain ⟨mi1, i1, i2, i3, i4, -⟩ := foundStep _ 0 _ _ _ hP.blind c2 hdr
  obtain ⟨mt2, u1, u2, u3, u4, u5⟩ := foundStep _ 0 _ _ _ timeExpr_blind c4 hdr
  rw [List.drop_zero] at i1 i4 u1 u4 u5
  obtain ⟨U, hU, hUl, hUd⟩ : ∃ U : Text, wordClockText D pre mid short h t s.1 = U ++ clockText short h t s.1 ∧
      U.length = D.length + pre.length + 1 + mid.length ∧ U.drop (D.length + pre.length + 1) = mid := by
    refine ⟨D ++ (pre ++ txt!" " ++ mid), ?_, ?_, ?_⟩
    · unfold wordClockText
      simp only [List.append_assoc]
    · simp only [List.length_append, List.length_cons, List.length_nil]; omega
    · rw [show D ++ (pre ++ txt!" " ++ mid) = (D ++ pre ++ txt!" ") ++ mid by simp, List.drop_left']
      simp only [List.length_append, List.length_cons, List.length_nil]
  have hL : (wordClockText D pre mid short h t s.1).length = D.length + pre.length + 1 + mid.length + (clockText short h t s.1).length := by
    rw [hU, List.length_append, hUl]
  have hlen : (wordClockText D pre mid short h t s.1).length < 100 := by rw [forall₂_length hdr]; exact c8
  rw [hU] at u1 u4 u5
  rw [← hUl] at u3 u4 u5
  obtain ⟨res, hres, r1, r2, r3, r4, r5, r6, -, r8, r9⟩ := clock_at (rt := rt) (g := integerWords) (U := U) (ref := ref) (idx := D.length + pre.length) hx
    (short := short) (h := h) (t := t) hsf (by omega) h9 h12 hmi hsec (by omega) (by omega) u2 u4 u5
  rw [hUd] at r2
  have hpd : res.hasPossibleDates = true := by
    refine hasPossibleDates_of_year ?_
    rw [r3.1]
    have := hx.valid.1.1
    simp only [DateTime.date]
    omega
  have hrs : ParserReturns rt ref (wordClockText D pre mid short h t s.1) timeExprParser [res.copy] := by
    refine ⟨integerWords, execute_one (mt := mt2) hrt.stale timeExpr_pattern timeExpr_min (by rw [hlow, hU]; exact u1) ?_ hpd ?_⟩
    · rw [hlow, hU, u2]; exact pureExtract_ok hres
    · rw [hlow, u3, hUl]; exact foundEnd _ _ timeExpr_blind c6 hdr
  have e0 : mi1.str 0 = D := by
    rw [i4]
    unfold wordClockText slice
    simp
  have hdt : ParserReturns rt ref (wordClockText D pre mid short h t s.1) P [a0.copy] := by
    refine ⟨integerWords, execute_one (mt := mi1) hrt.stale hP.pattern hP.min (by rw [hlow]; exact i1) ?_ ha2 ?_⟩
    · rw [hP.extract, i2]; exact pureExtract_ok (ha1 _ _ _ e0)
    · rw [hlow, i3]; exact foundEnd _ _ hP.blind c3 hdr
  generalize ha : a0.copy = a at *
  have b1 : res.copy.index = D.length + pre.length := by
    show res.index = _
    rw [r1]; unfold PResult.toU32; omega
  have b2 : res.copy.textLength = mid.length + (clockText short h t s.1).length := by
    show res.text.length = _
    rw [r2, List.length_append]
  have b6 : isDateOnly res.copy = false := by
    show (!res.startDate.certain .hour) = false
    rw [r6]; rfl
  have b7 : res.copy.getTag .extractTZ = false := by
    rw [← Bool.not_eq_true]
    intro hcon
    obtain ⟨g, hg⟩ := hrs
    have hh := c59_no_foreign_tag_partial rt hrt.stale hrt.stops integerWords g (wordClockText D pre mid short h t s.1) ref [res.copy]
    have := hh.1 timeExprParser .timeExpression (by simp [parserTags]) hg res.copy (by simp) _ hcon
    cases this
  have la : a.textLength = D.length := by unfold PResult.textLength; rw [ha4]
  have hbef : Before a res.copy := by unfold Before stop; omega
  obtain ⟨v1, v2, v3, v4, v5⟩ := run_two hrt hs (text := wordClockText D pre mid short h t s.1) (by omega) (ref := ref) (a := a) (b := res.copy)
    ⟨P, List.mem_of_getElem? hi, _, hdt, by simp⟩ ⟨timeExprParser, by simp [mainParsers], _, hrs, by simp⟩ hbef
    (others_beside hrt (by omega) hx (own := [i, 8]) (by
        rw [hlow, ha3, la, b1, b2]
        have := othersBeside_sim hdr c1
        rw [hclk] at this
        exact this) (by
      intro j hj P' hP'
      simp only [List.mem_cons, List.not_mem_nil, or_false] at hj
      rcases hj with rfl | rfl
      · have e : P' = P := by rw [hi] at hP'; exact (Option.some.inj hP').symm
        subst e
        refine ⟨_, hdt, fun x hx => ?_⟩
        simp only [List.mem_cons, List.not_mem_nil, or_false] at hx
        exact .inl hx
      · have e : P' = timeExprParser := (Option.some.inj hP').symm
        subst e
        refine ⟨_, hrs, fun x hx => ?_⟩
        simp only [List.mem_cons, List.not_mem_nil, or_false] at hx
        exact .inr (.inl hx)))
  rw [hlow] at v3 v4 v5
  have hst : stop res.copy + 1 = (wordClockText D pre mid short h t s.1).length := by
    unfold stop; omega
  have h24 : hour24 h s.2 < 24 := by
    unfold hour24
    rcases s.2 with _ | _ | _ <;> simp <;> omega
  refine ⟨_, rfl, hlow, hlen, rfl, ⟨_, hdt, by simp⟩, res.copy, b1, hst, r4, r5, r9, b6, b7, hbef, v1, v2, v3, v4, ?_, h24, v5⟩
  refine noRangeWord (forall₂_drop hdr (stop res.copy)) ?_ ?_
  · rw [List.length_drop, ← forall₂_length hdr]; omega
  · have : stop res.copy = (D ++ (pre ++ txt!" " ++ mid ++ clockText short 11 t.ones s.1)).length - 1 := by
      rw [← forall₂_length hdr]; omega
    rw [this]; exact c9

/-! ## today -/

def todayMention (ref : PTime) (x : DateTime) (D : Text) (f : Comps → Comps) : PResult :=
  (((PResult.mk' ref 0 D).onStart f).onStart (fun c => ((c.set .year x.year).set .month x.month).set .mday x.day)).setTag .casualDate

theorem today_extract {rt : Rt} {g : Globals} {tx : Text} {mt : Match} {ref : PTime} {x : DateTime} (hx : RefReads ref x) {D : Text}
    {f : Comps → Comps} (hs : searches true Pat.lastNight D = .ok false)
    (hd : casualDay (PResult.mk' ref 0 D) D ref false = ((PResult.mk' ref 0 D).onStart f, ref))
    (h0 : mt.str 0 = D) : casualDateExtract rt g tx mt ref 0 = .ok (todayMention ref x D f) := by
  obtain ⟨h1, h2, h3, -⟩ := Date.year_of_ymd hx.date
  unfold casualDateExtract
  simp only [h0]
  rw [hs, Out.bind_ok, hd]
  simp only []
  rw [h1, h2, h3]
  rfl

theorem today_checks0 {s : Text × Option Bool} (hs : s ∈ suffixes) : wordClockChecks 3 Ast.casualDate txt!"today" txt!"" txt!"" s.1 = true := by
  simp only [suffixes, List.mem_cons, List.not_mem_nil, or_false] at hs
  rcases hs with rfl | rfl | rfl | rfl | rfl | rfl | rfl | rfl | rfl | rfl | rfl | rfl <;> decide +kernel
theorem today_checks1 {s : Text × Option Bool} (hs : s ∈ suffixes) : wordClockChecks 3 Ast.casualDate txt!"today" txt!"" txt!"at " s.1 = true := by
  simp only [suffixes, List.mem_cons, List.not_mem_nil, or_false] at hs
  rcases hs with rfl | rfl | rfl | rfl | rfl | rfl | rfl | rfl | rfl | rfl | rfl | rfl <;> decide +kernel
theorem today_checks2 {s : Text × Option Bool} (hs : s ∈ suffixes) : wordClockChecks 3 Ast.casualDate txt!"today" txt!"," txt!"" s.1 = true := by
  simp only [suffixes, List.mem_cons, List.not_mem_nil, or_false] at hs
  rcases hs with rfl | rfl | rfl | rfl | rfl | rfl | rfl | rfl | rfl | rfl | rfl | rfl <;> decide +kernel

theorem today_checks {sep : Text × Text} (hsep : sep ∈ dtSeps) {s : Text × Option Bool} (hs : s ∈ suffixes) :
    wordClockChecks 3 Ast.casualDate txt!"today" sep.1 sep.2 s.1 = true := by
  simp only [dtSeps, List.mem_cons, List.not_mem_nil, or_false] at hsep
  rcases hsep with rfl | rfl | rfl
  · exact today_checks0 hs
  · exact today_checks1 hs
  · exact today_checks2 hs

/-- **C77 (today).** For every reference time and every written clock time (with ` `, ` at ` or `, ` between), `today at 9:30 pm`
prints the reference date at that time. -/
theorem c77_today_with_clock_partial (rt : Rt) (hrt : Rt.Defined rt) (sort : List PResult → List PResult) (hs : Sorts sort)
    (ref : PTime) (x : DateTime) (hx : RefReads ref x) (sep : Text × Text) (hsep : sep ∈ dtSeps)
    (short : Bool) (h : Nat) (t : Tail) (s : Text × Option Bool) (hsf : s ∈ suffixes)
    (hh : h < 24) (h9 : short = true → h ≤ 9) (h12 : s.1 ≠ [] → h ≤ 12) (hmi : t.minute < 60) (hsec : t.second < 60) :
    mainRun rt sort (txt!"today" ++ (sep.1 ++ txt!" " ++ sep.2 ++ clockText short h t s.1)) ref =
      .ok (foundLine ++ (DateTime.mk x.year x.month x.day (hour24 h s.2) t.minute t.second).format) := by
  have hck := today_checks hsep hsf
  have hf1 : ∀ g tx mt, mt.str 0 = txt!"today" → casualDateExtract rt g tx mt ref 0 = .ok (todayMention ref x txt!"today" id) :=
    fun g tx mt h0 => today_extract hx (by decide +kernel) (by casual_cases <;> rfl) h0
  have hf2 : NoTime (todayMention ref x txt!"today" id).copy.startDate := by
    unfold todayMention NoTime
    simp [PResult.copy, Comps.certain, Comps.certainKey]
  have hy : (x.year : Int) ≠ 0 := by have := hx.valid.1.1; omega
  have hpd : (todayMention ref x txt!"today" id).hasPossibleDates = true := by
    unfold todayMention
    exact hasPossibleDates_of_year (by simpa using hy)
  obtain ⟨T, e1, e2, e3, e4, -, b, b1, b2, b3, b4, b5, b6, b7, b8, b9, b10, b11, b12, b13, b14, b15⟩ := wordClock_run byText_casual (i := 3) rfl (by decide)
    (by decide) (by decide) hrt hs hx hf1 hpd (by simp [todayMention, PResult.copy]) (by simp [todayMention, PResult.copy]) short h t s hsf hck hh h9 h12 hmi hsec
  have htag : ∀ t, (todayMention ref x txt!"today" id).copy.getTag t = true → t = .casualDate := by
    intro t
    simp [todayMention, PResult.copy, PResult.getTag, PResult.setTag]
    split
    · intro _; assumption
    · intro h; cases h
  rw [← e4]
  refine prints_date_time (rt := rt) (sort := sort) (text := T) (ref := ref) (a := (todayMention ref x txt!"today" id).copy) (b := b)
    (d := (todayMention ref x txt!"today" id).copy) (t := b) b9 b10 (by rw [e2]; exact b11) (by rw [e2]; exact b12) b8 (by rw [b15, e2])
    (fun _ _ h => ?_) (fun abbr off _ => noZone_short (by rw [e2]; omega)) (by rw [e2]; exact b13) ?_ b7 ?_ b4 (.inl ⟨rfl, rfl⟩) hf2 ?_ b5 b6
    (y := x.year) (mo := x.month) (da := x.day) ?_ b3 ⟨hx.valid.1, b14, hmi, hsec⟩
  · exact absurd (htag _ h) (by decide)
  · cases hh : (todayMention ref x txt!"today" id).copy.getTag .extractTZ with
    | false => rfl
    | true => exact absurd (htag _ hh) (by decide)
  · simp [todayMention, PResult.copy]
  · simp [todayMention, PResult.copy, isTimeOnly, Comps.certain, Comps.certainKey]
  · simp [todayMention, PResult.copy, DateIs]

/-! ## Holidays -/

theorem holiday_alone : (statutory.all fun p => checkAt0 Ast.holiday p.1 [(0, p.1)] && toLower p.1 == p.1 && decide (0 < p.1.length)) = true := by decide +kernel

theorem holiday_checks0 {p : Text × (Nat → Nat → Nat → Prop)} (hp : p ∈ statutory) : wordClockChecks 10 Ast.holiday p.1 [] txt!"at " [] = true := by
  simp only [statutory, List.mem_cons, List.not_mem_nil, or_false] at hp
  rcases hp with rfl | rfl | rfl | rfl | rfl | rfl | rfl | rfl | rfl | rfl <;> decide +kernel
theorem holiday_checks1 {p : Text × (Nat → Nat → Nat → Prop)} (hp : p ∈ statutory) : wordClockChecks 10 Ast.holiday p.1 [] txt!"at " txt!" am" = true := by
  simp only [statutory, List.mem_cons, List.not_mem_nil, or_false] at hp
  rcases hp with rfl | rfl | rfl | rfl | rfl | rfl | rfl | rfl | rfl | rfl <;> decide +kernel
theorem holiday_checks2 {p : Text × (Nat → Nat → Nat → Prop)} (hp : p ∈ statutory) : wordClockChecks 10 Ast.holiday p.1 [] txt!"at " txt!" pm" = true := by
  simp only [statutory, List.mem_cons, List.not_mem_nil, or_false] at hp
  rcases hp with rfl | rfl | rfl | rfl | rfl | rfl | rfl | rfl | rfl | rfl <;> decide +kernel

/-- The suffixes in the next theorem. -/
def someSuffixes : List (Text × Option Bool) := [([], none), (txt!" am", some false), (txt!" pm", some true)]

/-- The civil day of a holiday. -/
theorem statutory_civil {p : Text × (Nat → Nat → Nat → Prop)} (hp : p ∈ statutory) {y m d : Nat} (hy1 : 1400 ≤ y) (hy2 : y ≤ 9999) (h1 : p.2 y m d) :
    CivilInRange y m d := by
  have hb : ∀ m d, 1 ≤ m → m ≤ 12 → 1 ≤ d → d ≤ 28 → CivilInRange y m d := by
    intro m d a b c e
    have := (monthLength_bounds y m a b)
    exact ⟨hy1, hy2, a, b, c, by omega⟩
  simp only [statutory, List.mem_cons, List.not_mem_nil, or_false] at hp
  rcases hp with rfl | rfl | rfl | rfl | rfl | rfl | rfl | rfl | rfl | rfl
  · obtain ⟨rfl, rfl⟩ := h1; exact hb _ _ (by decide) (by decide) (by decide) (by decide)
  · obtain ⟨rfl, rfl⟩ := h1; exact hb _ _ (by decide) (by decide) (by decide) (by decide)
  · obtain ⟨rfl, rfl⟩ := h1; exact hb _ _ (by decide) (by decide) (by decide) (by decide)
  all_goals
    obtain ⟨rfl, h1⟩ := h1
    exact ⟨hy1, hy2, h1.1⟩

theorem holidayExtract_hour {rt : Rt} {g : Globals} {tx : Text} {mt : Match} {ref : PTime} {idx : Nat} {res : PResult}
    (h : holidayExtract rt g tx mt ref idx = .ok res) : res.startDate.certain .hour = true := by
  unfold holidayExtract at h
  obtain ⟨z, hz, h⟩ := Out.bind_eq_ok.1 h
  simp only [Out.pure_eq, Out.ok.injEq] at h
  subst h
  simp [Comps.certain, Comps.certainKey]

/-- **C77 is false of holidays.** For every reference time, each statutory holiday with ` at ` and any written clock time prints the
holiday at midnight: the time is lost. -/
theorem c77_holiday_with_clock_refuted (rt : Rt) (hrt : Rt.Defined rt) (sort : List PResult → List PResult) (hs : Sorts sort)
    (ref : PTime) (x : DateTime) (hx : RefReads ref x) :
    ∀ p ∈ statutory, ∃ m d, p.2 x.year m d ∧ ∀ (short : Bool) (h : Nat) (t : Tail) (s : Text × Option Bool), s ∈ someSuffixes →
    h < 24 → (short = true → h ≤ 9) → (s.1 ≠ [] → h ≤ 12) → t.minute < 60 → t.second < 60 →
    mainRun rt sort (p.1 ++ (txt!" at " ++ clockText short h t s.1)) ref = .ok (foundLine ++ (midnight (x.year, m, d)).format) := by
  intro p hp
  obtain ⟨m, d, h1, h2⟩ := c36_us_holidays rt hrt.stale integerWords ref x hx p hp
  have ha := List.all_eq_true.1 holiday_alone p hp
  simp only [Bool.and_eq_true, beq_iff_eq, decide_eq_true_eq] at ha
  obtain ⟨⟨ha1, ha2⟩, ha3⟩ := ha
  obtain ⟨res, k1, k2, k3, k4, k5, k6, k7⟩ := byText_holiday.alone hrt.stale ha2 ha1 h2
  refine ⟨m, d, h1, fun short h t s hs1 hh h9 h12 hmi hsec => ?_⟩
  obtain ⟨v1, -⟩ := id hx.valid
  have hc := statutory_civil hp v1.1 v1.2.1 h1
  have hsf : s ∈ suffixes ∧ wordClockChecks 10 Ast.holiday p.1 [] txt!"at " s.1 = true := by
    simp only [someSuffixes, List.mem_cons, List.not_mem_nil, or_false] at hs1
    rcases hs1 with rfl | rfl | rfl
    · exact ⟨by decide, holiday_checks0 hp⟩
    · exact ⟨by decide, holiday_checks1 hp⟩
    · exact ⟨by decide, holiday_checks2 hp⟩
  obtain ⟨hsf, hck⟩ := hsf
  obtain ⟨T, e1, e2, e3, e4, ⟨rs, e5, e6⟩, b, b1, b2, b3, b4, b5, b6, b7, b8, b9, b10, b11, b12, b13, b14, b15⟩ := wordClock_run byText_holiday (i := 10) rfl (by decide)
    ha2 ha3 hrt hs hx k1 k2 k3 k4 short h t s hsf hck hh h9 h12 hmi hsec
  have hhour : res.copy.startDate.certain .hour = true := by
    obtain ⟨mt, hf, hg⟩ := foundAt0 (r := Ast.holiday) [(0, p.1)] ha1
    show res.startDate.certain .hour = true
    exact holidayExtract_hour (k1 integerWords [] mt (hg (0, p.1) (by simp)))
  have htag : ∀ t, res.copy.getTag t = true → t = .usHolidays := by
    obtain ⟨g, hg⟩ := e5
    exact (c59_no_foreign_tag_partial rt hrt.stale hrt.stops integerWords g T ref rs).1 holidayParser .usHolidays (by simp [parserTags]) hg _ e6
  have e : p.1 ++ (txt!" at " ++ clockText short h t s.1) = T := by rw [e4]; rfl
  rw [e]
  obtain ⟨q1, q2, q3⟩ := k5
  refine prints_first (rt := rt) (sort := sort) (text := T) (ref := ref) (a := res.copy) (b := b) b9 b10 (by rw [e2]; exact b11) (by rw [e2]; exact b12) b8
    (by rw [b15, e2]) (fun _ _ h => ?_) (fun abbr off _ => noZone_short (by rw [e2]; omega)) ?_ (.inl ?_) (.inl b6) k7 ?_
    (t := midnight (x.year, m, d)) ⟨hc, by simp [midnight], by simp [midnight], by simp [midnight]⟩ ⟨q1, q2, q3, k6.1, k6.2.1, k6.2.2⟩
  · exact absurd (htag _ h) (by decide)
  · cases hh : res.copy.getTag .extractTZ with
    | false => rfl
    | true => exact absurd (htag _ hh) (by decide)
  · unfold isDateOnly; rw [hhour]; rfl
  · rintro ⟨w, hw, hi⟩
    have : slice (toLower T) (stop res.copy) b.index = [] := by
      unfold slice stop PResult.textLength
      rw [k3, k4, b1]
      simp
    rw [this] at hi
    have hw0 : ∀ w ∈ rangeWords, w ≠ [] := by decide
    exact hw0 w hw (List.infix_nil.1 hi)

/-- Both theorems on concrete texts: the model itself, evaluated by the kernel, prints this. -/
example : printed (mainRun (Rt.usual 0) sortKeep txt!"today at 9:30 pm" exampleRef) txt!"Date:\t2019-Mar-15 21:30:00" = true := by decide +kernel
example : printed (mainRun (Rt.usual 0) sortKeep txt!"labor day at 9:30 pm" exampleRef) txt!"Date:\t2019-Sep-02 00:00:00" = true := by decide +kernel

end Chrono.Props
