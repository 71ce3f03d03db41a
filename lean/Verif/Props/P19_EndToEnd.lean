import Verif.Props.P12_Casual
import Verif.Props.P13_Iso
import Verif.Props.P10_Holidays
import Verif.Props.P15_Tags
import Verif.Props.P18_ClockRanges
/-!
# C55, C56, C60: what the program prints
-/
namespace Chrono.Props
open Chrono Chrono.Spec Chrono.Boost

/-! ## One mention that covers the whole text -/

theorem overlapRefine_whole {l : List PResult} {r : PResult} {n : Nat} (hs : SortedByIndex l) (hm : r ∈ l)
    (hne : ∀ x ∈ l, NonEmpty x ∧ stop x ≤ n) (h0 : r.index = 0) (hn : r.textLength = n)
    (hl : ∀ x ∈ l, x = r ∨ x.textLength < n) : overlapRefine l = [r] := by
  obtain ⟨hsub, hpw⟩ := c42_sublist_and_disjoint l hs
  have hr : r ∈ overlapRefine l := (c43_longest_survives l).1 r hm (hne r hm).1 (by rw [hn]; exact hl)
  have key : ∀ x ∈ overlapRefine l, ¬ Before r x ∧ ¬ Before x r := by
    intro x hx
    obtain ⟨h1, h2⟩ := hne x (hsub.mem hx)
    unfold NonEmpty at h1; unfold stop at h2; unfold Before stop
    omega
  match hL : overlapRefine l, hr with
  | [a], hr => simp at hr; rw [hr]
  | a :: b :: rest, hr =>
    rw [hL] at hpw key
    exfalso
    rcases List.mem_cons.1 hr with rfl | hr'
    · exact (key b (by simp)).1 ((List.pairwise_cons.1 hpw).1 b (by simp))
    · exact (key a (by simp)).2 ((List.pairwise_cons.1 hpw).1 r hr')

theorem noZone_at_end {text : Text} {r : PResult} {abbr : Text} {off : Int} (h : stop r = text.length) :
    ¬ FollowedByZone text r abbr off := by
  rintro ⟨-, ⟨b, o, c, h1, -, -, -, h2, -⟩, -⟩
  rw [h, List.drop_length] at h1
  have := congrArg List.length h1
  simp at this
  omega

theorem toDate_congr {r r' : PResult} (h1 : r'.startDate = r.startDate) (h2 : r'.endDate = r.endDate)
    (h3 : r'.hasEnd = r.hasEnd) (h4 : ∀ t, r'.getTag t = r.getTag t) : r'.toDate = r.toDate := by
  unfold PResult.toDate
  rw [h1, h2, h3, h4]

/-- A single mention without a time zone after it goes through the refiners unchanged, as far as printing goes. -/
theorem refine_single {r : PResult} {text : Text} {l : List PResult} (ho : overlapRefine l = [r])
    (hz : ∀ abbr off, r.getTag .timeExpression = true → ¬ FollowedByZone text r abbr off) :
    (do let out ← runRefiners l text; printResult out) = (do let d ← r.toDate; return txt!"Date:\t" ++ d) := by
  unfold runRefiners
  simp only [ho]
  obtain ⟨rs', e, hl, hh⟩ := c47_only_tagged_times_before_known_zone [r] text
  rw [e]
  match rs', hl with
  | [r'], _ =>
    obtain ⟨-, h2, h3, -, h5, -⟩ := hh 0 (by simp) (by simp)
    obtain ⟨-, h6, h7⟩ := h5 (by rintro ⟨a, o, h, h'⟩; exact hz a o h h')
    simp only [Out.bind_ok, mdtRefine, mdrRefine, printResult]
    rw [toDate_congr (r := r) (r' := r') h6 h3 h2 h7]

theorem forall₂_of_forall {α β : Type} {R : α → β → Prop} {l : List α} (h : ∀ a ∈ l, ∃ b, R a b) : ∃ m, List.Forall₂ R l m := by
  induction l with
  | nil => exact ⟨[], .nil⟩
  | cons a l ih =>
    obtain ⟨b, hb⟩ := h a (by simp)
    obtain ⟨m, hm⟩ := ih (fun x hx => h x (by simp [hx]))
    exact ⟨b :: m, .cons hb hm⟩

theorem parserReturns_unique {rt : Rt} {ref : PTime} {text : Text} {P : Parser} {a b : List PResult}
    (h : ParserReturns rt ref text P a) (h' : ParserReturns rt ref text P b) : a = b := by
  obtain ⟨g, h⟩ := h
  obtain ⟨g', h'⟩ := h'
  rw [h] at h'
  simp at h'
  exact h'.1

theorem mem_flatten_of_returns {rt : Rt} {ref : PTime} {text : Text} {ps : List Parser} {rss : List (List PResult)}
    (h : List.Forall₂ (ParserReturns rt ref text) ps rss) {x : PResult} :
    x ∈ rss.flatten ↔ ∃ P ∈ ps, ∃ rs, ParserReturns rt ref text P rs ∧ x ∈ rs := by
  induction h with
  | nil => simp
  | @cons P rs ps rss h1 _ ih =>
    simp only [List.flatten_cons, List.mem_append, ih, List.mem_cons]
    constructor
    · rintro (hx | ⟨Q, hQ, rs', h2, h3⟩)
      · exact ⟨P, .inl rfl, rs, h1, hx⟩
      · exact ⟨Q, .inr hQ, rs', h2, h3⟩
    · rintro ⟨Q, rfl | hQ, rs', h2, h3⟩
      · rw [parserReturns_unique h1 h2]; exact .inl h3
      · exact .inr ⟨Q, hQ, rs', h2, h3⟩

/-- **C60.** If none of the parsers of the program fails on the text, one of them returns a mention `r` that covers the
whole text, and every other mention returned is shorter, then the program prints exactly the date of `r` - whatever
`std::sort` does. -/
theorem c60_whole_text_mention_wins (rt : Rt) (hrt : rt.Benign) (hst : rt.Stops) (sort : List PResult → List PResult)
    (hs : Sorts sort) (text : Text) (hlen : text.length < 4294967296) (ref : PTime) (r : PResult)
    (hr : ∃ P ∈ mainParsers, ∃ rs, ParserReturns rt ref text P rs ∧ r ∈ rs)
    (h0 : r.index = 0) (hn : r.textLength = text.length)
    (hall : ∀ P ∈ mainParsers, ∃ rs, ParserReturns rt ref text P rs ∧ ∀ x ∈ rs, x = r ∨ x.textLength < text.length) :
    mainRun rt sort text ref = (do let d ← r.toDate; return foundLine ++ d) := by
  obtain ⟨rss, h4⟩ := forall₂_of_forall (fun P hP => (hall P hP).imp fun _ h => h.1)
  obtain ⟨g, hg⟩ := runParsers_main.2 ⟨rss, h4, rfl⟩
  rw [mainRun_eq hg]
  obtain ⟨hp, hso⟩ := hs rss.flatten
  have hne := returned_nonEmpty hrt hst hlen h4
  have hmem : ∀ x ∈ sort rss.flatten, x = r ∨ x.textLength < text.length := by
    intro x hx
    obtain ⟨P, hP, rs, h1, h2⟩ := (mem_flatten_of_returns h4).1 (hp.mem_iff.1 hx)
    obtain ⟨rs', h3, h5⟩ := hall P hP
    rw [parserReturns_unique h1 h3] at h2
    exact h5 x h2
  refine refine_single (r := r) (overlapRefine_whole hso (hp.mem_iff.2 ((mem_flatten_of_returns h4).2 hr)) (n := text.length)
    (fun x hx => ?_) h0 hn hmem) ?_
  · obtain ⟨a, b, -⟩ := hne x (hp.mem_iff.1 hx)
    exact ⟨a, b⟩
  · intro abbr off _
    refine noZone_at_end ?_
    unfold stop textAfter
    rw [h0, hn]; simp [toLower]

/-! ## Parsers that find nothing, or only part of the text -/

/-- The pattern finds nothing in the text, or first a proper part of it. -/
def shortFirst (r : Re) (t : Text) : Bool :=
  match r.search t with
  | none => true
  | some mt => decide (mt.stop - mt.start < t.length)

/-- The parser's pattern finds nothing in the text. -/
def silent (P : Parser) (t : Text) : Bool :=
  match P.pattern with
  | none => true
  | some r => (r.search t).isNone

theorem silent_returns {rt : Rt} {ref : PTime} {text : Text} {P : Parser} (h : silent P (toLower text) = true) :
    ParserReturns rt ref text P [] := by
  unfold silent at h
  cases hr : P.pattern with
  | none => exact ⟨_, by unfold execute; rw [hr]⟩
  | some r =>
    rw [hr] at h
    simp only [Option.isNone_iff_eq_none] at h
    exact ⟨_, execute_none hr h⟩

theorem short_returns {rt : Rt} (hrt : rt.Benign) (hst : rt.Stops) {ref : PTime} {text : Text} (hlen : text.length < 4294967296)
    {P : Parser} (hP : P ∈ allParsers) {r : Re} (hr : P.pattern = some r) (h : shortFirst r (toLower text) = true)
    {rs : List PResult} (hret : ParserReturns rt ref text P rs) : ∀ x ∈ rs, x.textLength < text.length := by
  obtain ⟨g', hret⟩ := hret
  have hw := allParsers_wellBehaved P hP
  have hl : (toLower text).length = text.length := by simp [toLower]
  have hsc := execute_scan hrt hr (hw r hr).1 integerWords text ref
  rw [hret] at hsc
  generalize ho : (Out.ok (rs, g') : Out (List PResult × Globals)) = o at hsc
  cases hsc with
  | done hs => simp at ho; rw [ho.1]; simp
  | @step _ _ mt res g1 out hs hx hrest =>
    rw [eq_comm] at ho
    obtain ⟨y, hy, ho⟩ := Out.bind_eq_ok.1 ho
    simp only [Out.ok.injEq, Prod.mk.injEq] at ho
    obtain ⟨h1, -⟩ := scan_spans hst hw hr (by rw [hl]; exact hlen) hrest y.1 y.2 (by rw [hy])
    rw [List.drop_zero] at hs
    obtain ⟨hm, hwr⟩ := hw r hr
    obtain ⟨p1, p2⟩ := match_pos hm hs
    have ok := Re.search_ok hs
    have hml := ok.len
    unfold Match.length at hml
    obtain ⟨w1, w2, w3⟩ := (hwr rt _ _ mt ref _ hst hs).of_ok (by simpa using hx)
    simp only at w1 w2 w3
    have w4 := w3.length_le
    unfold shortFirst at h
    rw [hs] at h
    simp only [decide_eq_true_eq] at h
    have rest : ∀ x ∈ y.1, x.textLength < text.length := by
      intro x hx
      obtain ⟨a, b, c⟩ := h1 x hx
      unfold stop at c
      omega
    rw [← ho.1]
    split
    · intro x hx
      rcases List.mem_cons.1 hx with rfl | hx
      · show res.text.length < _
        omega
      · exact rest x hx
    · exact rest
  | fail hs hx =>
    rw [eq_comm] at ho
    obtain ⟨y, hy, -⟩ := Out.bind_eq_ok.1 ho
    exact absurd hy (hx y)

/-- The patterns of the program's parsers, in order. -/
def mainPatterns : List (Option Re) :=
  [some Ast.casualTime, some Ast.deadline, none, some Ast.casualDate, some Ast.middleEndian, some Ast.timeLater,
   some Ast.monthName, some Ast.timeAgo, some Ast.timeExpr, some Ast.iso, some Ast.holiday, some Ast.week]

theorem mainPatterns_eq : mainParsers.map Parser.pattern = mainPatterns := by
  simp only [mainParsers, mainPatterns, List.map_cons, List.map_nil, casualTime_pattern, deadline_pattern, dayOfWeek_pattern,
    casualDate_pattern, middleEndian_pattern, timeLater_pattern, monthName_pattern, timeAgo_pattern, timeExpr_pattern,
    iso_pattern, holiday_pattern, week_pattern]

/-- Nothing is found in `t` by any pattern but those of the parser at position `i` and of the clock-time parser
(position 8), and if `i` is not 8, the first clock time found is shorter than `t`. -/
def othersShort (i : Nat) (t : Text) : Bool :=
  (List.range 12).all fun j => j == i ||
    match (mainPatterns[j]?).join with
    | none => true
    | some r => if j = 8 then shortFirst r t else (r.search t).isNone

theorem mainPatterns_blind : ∀ o ∈ mainPatterns, ∀ r, o = some r → r.digitBlind = true := by
  have : (mainPatterns.all fun o => match o with | none => true | some r => r.digitBlind) = true := by decide +kernel
  intro o ho r hr
  have := List.all_eq_true.1 this o ho
  rw [hr] at this
  exact this

theorem search_sim_none {r : Re} (hb : r.digitBlind = true) {phrase rep : Text} (hp : List.Forall₂ DigitRel phrase rep)
    (h : (r.search rep).isNone = true) : (r.search phrase).isNone = true := by
  have h1 := Re.search_sim (Re.digitBlind_sound hb) hp
  rw [Option.isNone_iff_eq_none] at h
  rw [h] at h1
  generalize r.search phrase = o at h1
  cases h1
  rfl

theorem shortFirst_sim {r : Re} (hb : r.digitBlind = true) {phrase rep : Text} (hp : List.Forall₂ DigitRel phrase rep)
    (h : shortFirst r rep = true) : shortFirst r phrase = true := by
  have h1 := Re.search_sim (Re.digitBlind_sound hb) hp
  have hl := hp.length_eq
  unfold shortFirst at *
  generalize r.search phrase = o at h1
  cases h2 : r.search rep with
  | none => rw [h2] at h1; cases h1; rfl
  | some mt =>
    rw [h2] at h1 h
    cases h1 with
    | some h1 => subst h1; simp only [decide_eq_true_eq] at *; omega

theorem mainPatterns_get (j : Nat) : (mainPatterns[j]?).join = (mainParsers[j]?).bind Parser.pattern := by
  rw [← mainPatterns_eq, List.getElem?_map]
  cases mainParsers[j]? <;> rfl

theorem othersShort_sim {i : Nat} {phrase rep : Text} (hp : List.Forall₂ DigitRel phrase rep)
    (h : othersShort i rep = true) : othersShort i phrase = true := by
  unfold othersShort at *
  rw [List.all_eq_true] at *
  intro j hj
  have := h j hj
  rw [Bool.or_eq_true] at *
  refine this.imp id fun h => ?_
  cases hr : (mainPatterns[j]?).join with
  | none => rfl
  | some r =>
    rw [hr] at h
    have hb : r.digitBlind = true := by
      obtain ⟨o, ho, h2⟩ := Option.join_eq_some_iff.1 hr |> fun h => (⟨_, h, rfl⟩ : ∃ o, mainPatterns[j]? = some o ∧ o = some r)
      exact mainPatterns_blind o (List.mem_of_getElem? ho) r h2
    simp only at h ⊢
    split
    · rw [if_pos ‹_›] at h; exact shortFirst_sim hb hp h
    · rw [if_neg ‹_›] at h; exact search_sim_none hb hp h

/-- Reading the uninitialised variable and the destroyed string gives some value (see `Rt`). -/
structure Rt.Defined (rt : Rt) : Prop where
  stale : rt.Benign
  uninit : ∃ c, rt.uninit = .ok c
  dangling : ∀ c, ∃ d, rt.dangling c = .ok d

theorem Rt.Defined.stops {rt : Rt} (h : Rt.Defined rt) : rt.Stops := by
  obtain ⟨-, ⟨c, hc⟩, hd⟩ := h
  refine ⟨by rw [hc]; simp, fun c => ?_⟩
  obtain ⟨d, hd⟩ := hd c
  rw [hd]; simp

theorem Rt.Defined.noBadRead {rt : Rt} (h : Rt.Defined rt) (f : Fail) : ¬ BadRead rt f := by
  obtain ⟨-, ⟨c, hc⟩, hd⟩ := h
  rintro (h | ⟨n, h⟩)
  · rw [hc] at h; cases h
  · obtain ⟨d, hd⟩ := hd n
    rw [hd] at h; cases h

example : Rt.Defined (Rt.usual 0) := ⟨fun _ => rfl, ⟨0, rfl⟩, fun c => ⟨c, rfl⟩⟩

/-- The clock-time parser always returns, on a machine where its bad reads give some value. -/
theorem clock_returns {rt : Rt} (hrt : Rt.Defined rt) {ref : PTime} {x : DateTime} (hx : RefReads ref x) (text : Text) :
    ∃ rs, ParserReturns rt ref text timeExprParser rs := by
  rcases c35_only_bad_reads_partial rt hrt.stale integerWords text ref x hx with ⟨rs, h⟩ | ⟨-, f, -, h⟩
  · exact ⟨rs, _, h⟩
  · exact absurd h (hrt.noBadRead f)

theorem mainParsers_tag : ∀ P ∈ mainParsers, P = weekParser ∨ ∃ G, (P, G) ∈ parserTags ∧ G ≠ .extractTZ := by
  intro P hP
  simp only [mainParsers, List.mem_cons, List.not_mem_nil, or_false] at hP
  have mem : ∀ (i : Nat) (p : Parser × Tag), parserTags[i]? = some p → p ∈ parserTags := fun i p h => List.mem_of_getElem? h
  rcases hP with rfl | rfl | rfl | rfl | rfl | rfl | rfl | rfl | rfl | rfl | rfl | rfl
  · exact .inr ⟨.casualTime, mem 0 _ rfl, by decide⟩
  · exact .inr ⟨.deadline, mem 1 _ rfl, by decide⟩
  · exact .inr ⟨.dayOfTheWeek, mem 2 _ rfl, by decide⟩
  · exact .inr ⟨.casualDate, mem 3 _ rfl, by decide⟩
  · exact .inr ⟨.middleEndian, mem 4 _ rfl, by decide⟩
  · exact .inr ⟨.timeLater, mem 5 _ rfl, by decide⟩
  · exact .inr ⟨.monthName, mem 6 _ rfl, by decide⟩
  · exact .inr ⟨.timeAgo, mem 7 _ rfl, by decide⟩
  · exact .inr ⟨.timeExpression, mem 8 _ rfl, by decide⟩
  · exact .inr ⟨.iso, mem 9 _ rfl, by decide⟩
  · exact .inr ⟨.usHolidays, mem 10 _ rfl, by decide⟩
  · exact .inl rfl

/-- The only parser that finds a mention covering the whole text determines what is printed. -/
theorem prints_whole {rt : Rt} (hrt : Rt.Defined rt) {sort : List PResult → List PResult}
    (hs : Sorts sort) {text : Text} (hlen : text.length < 4294967296) {ref : PTime} {x : DateTime} (hx : RefReads ref x)
    (i : Nat) {P : Parser} (hP : mainParsers[i]? = some P)
    {Q : PResult → Prop} (hy : Yields (execute rt P integerWords text ref) text Q)
    (ho : othersShort i (toLower text) = true) :
    ∃ r, r.index = 0 ∧ r.text = text ∧ Q r ∧ r.getTag .extractTZ = false ∧
      mainRun rt sort text ref = (do let d ← r.toDate; return foundLine ++ d) := by
  obtain ⟨r, g, he, h0, ht, hq⟩ := hy
  have hmem : P ∈ mainParsers := List.mem_of_getElem? hP
  have htag : r.getTag .extractTZ = false := by
    rw [← Bool.not_eq_true]
    intro hc
    have hh := c59_no_foreign_tag_partial rt hrt.stale hrt.stops integerWords g text ref [r]
    rcases mainParsers_tag P hmem with rfl | ⟨G, hG, hne⟩
    · rw [hh.2 he r (by simp)] at hc; cases hc
    · exact hne (hh.1 P G hG he r (by simp) _ hc).symm
  refine ⟨r, h0, ht, hq, htag, ?_⟩
  refine c60_whole_text_mention_wins rt hrt.stale hrt.stops sort hs text hlen ref r ⟨P, hmem, [r], ⟨g, he⟩, by simp⟩ h0
    (by unfold PResult.textLength; rw [ht]) ?_
  intro Q hQ
  obtain ⟨j, hj⟩ := List.mem_iff_getElem?.1 hQ
  by_cases hji : j = i
  · subst hji
    rw [hj] at hP
    cases hP
    exact ⟨[r], ⟨g, he⟩, by simp⟩
  · unfold othersShort at ho
    have hj12 : j < 12 := (List.getElem?_eq_some_iff.1 hj).1
    have h1 := List.all_eq_true.1 ho j (by simp [hj12])
    rw [mainPatterns_get, hj] at h1
    simp only [Option.bind_some, Bool.or_eq_true, beq_iff_eq, hji, false_or] at h1
    by_cases h8 : j = 8
    · subst h8
      have e : Q = timeExprParser := (Option.some.inj hj).symm
      subst e
      have h2 : shortFirst Ast.timeExpr (toLower text) = true := by
        revert h1
        rw [timeExpr_pattern]
        simp
      obtain ⟨rs, hrs⟩ := clock_returns hrt hx text
      exact ⟨rs, hrs, fun x hx => .inr (short_returns hrt.stale hrt.stops hlen (by simp [allParsers, mainParsers])
        timeExpr_pattern h2 hrs x hx)⟩
    · refine ⟨[], silent_returns ?_, by simp⟩
      unfold silent
      revert h1
      cases Q.pattern with
      | none => simp
      | some r' => simp [h8]

/-- The same when the mention reads a valid date-time and has no end. -/
theorem prints_date {rt : Rt} (hrt : Rt.Defined rt) {sort : List PResult → List PResult}
    (hs : Sorts sort) {text : Text} (hlen : text.length < 4294967296) {ref : PTime} {x : DateTime} (hx : RefReads ref x)
    (i : Nat) {P : Parser} (hP : mainParsers[i]? = some P) {t : DateTime} (hv : t.Valid)
    {Q : PResult → Prop} (hy : Yields (execute rt P integerWords text ref) text Q)
    (hQ : ∀ r, Q r → DateIs r.startDate t.date ∧ TimeIs r.startDate t.hour t.minute t.second ∧ r.hasEnd = false)
    (ho : othersShort i (toLower text) = true) :
    mainRun rt sort text ref = .ok (foundLine ++ t.format) := by
  obtain ⟨r, -, -, hq, htag, he⟩ := prints_whole hrt hs hlen hx i hP hy ho
  obtain ⟨⟨q1, q2, q3⟩, ⟨q4, q5, q6⟩, q7⟩ := hQ r hq
  rw [he, c08_toDate_prints_start r t hv ⟨q1, q2, q3, q4, q5, q6⟩ q7 htag]
  rfl

/-! ## C55 -/

/-- **C55.** For every civil date of the years 1400 to 9999 the program, run on its ISO form, prints that date at
00:00:00 - whatever the reference time, and however `std::sort` orders mentions that begin at the same place. -/
theorem c55_iso_date_printed_back (rt : Rt) (hrt : Rt.Defined rt) (sort : List PResult → List PResult)
    (hs : Sorts sort) (ref : PTime) (x : DateTime) (hx : RefReads ref x) (y m d : Nat) (hc : CivilInRange y m d) :
    mainRun rt sort (isoDate y m d) ref = .ok (foundLine ++ (DateTime.mk y m d 0 0 0).format) := by
  obtain ⟨c1, c2, c3, c4, c5, c6⟩ := id hc
  have hb := monthLength_bounds y m c3 c4
  refine prints_date hrt hs ?_ hx 9 (P := isoParser) rfl ⟨hc, by simp, by simp, by simp⟩
    (c27_iso_date rt hrt.stale integerWords ref y m d (by omega) (by omega) c3 c4 c5 (by omega)) ?_ ?_
  · have := (dr_isoDate (y := y) (m := m) (d := d)).length_eq
    rw [this]; decide
  · rintro r ⟨h1, h2, h3, -⟩
    exact ⟨h1, h2, h3⟩
  · rw [toLower_isoDate]
    exact othersShort_sim dr_isoDate (by decide +kernel)

end Chrono.Props
