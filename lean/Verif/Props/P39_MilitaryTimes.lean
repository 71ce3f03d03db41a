import Verif.Props.P17_ClockPhrases
/-!
# C70: times without a colon, times after `at` and `from`
-/
namespace Chrono.Props
open Chrono Chrono.Spec Chrono.Boost

/-! ## Specification -/

/-- What may come before a time. -/
def leadIns : List Text := [[], txt!"at ", txt!"from "]

/-- Hour and minute without a colon: `930` (short), `0930`, `1730`. -/
def hhmmText (short : Bool) (h mi : Nat) : Text := hourText short h ++ two mi

example : hhmmText true 9 30 = txt!"930" ∧ hhmmText false 17 5 = txt!"1705" := by decide

/-! ## What the pattern finds -/

theorem stoi_hhmm {short : Bool} {h mi : Nat} (hh : h < (if short then 10 else 100)) (hmi : mi < 100) :
    stoi (hhmmText short h mi) = .ok ((100 * h + mi : Nat) : Int) := by
  have hd : ∀ c ∈ hhmmText short h mi, isDigitB c = true := by
    intro c hc
    unfold hhmmText hourText two at hc
    cases short <;> simp at hc <;> rcases hc with rfl | hc <;> try exact isDigitB_dig _
    · rcases hc with rfl | rfl | rfl <;> exact isDigitB_dig _
    · rcases hc with rfl | rfl <;> exact isDigitB_dig _
  have hv : digitsVal 0 (hhmmText short h mi) = 100 * h + mi := by
    cases short
    · simp only [Bool.false_eq_true, if_false] at hh
      show (((0 * 10 + (dig (h / 10) - 48)) * 10 + (dig h - 48)) * 10 + (dig (mi / 10) - 48)) * 10 + (dig mi - 48) = _
      simp only [dig_val]; omega
    · simp only [if_true] at hh
      show ((0 * 10 + (dig h - 48)) * 10 + (dig (mi / 10) - 48)) * 10 + (dig mi - 48) = _
      simp only [dig_val]; omega
  rw [stoi_digits (by unfold hhmmText two; simp) hd, hv, if_pos]
  cases short <;> simp at hh <;> omega

theorem hourOf_hhmm {short : Bool} {h mi : Nat} (hh : h < (if short then 10 else 100)) (hmi : mi < 100) :
    hourOf (hhmmText short h mi) = .ok ((100 * h + mi : Nat) : Int) := by
  have h1 : ∀ n w, dig n :: w ≠ txt!"noon" ∧ dig n :: w ≠ txt!"midnight" := by
    intro n w
    constructor <;> (intro e; injection e with e _; unfold dig at e; omega)
  have h2 : hhmmText short h mi ≠ txt!"noon" ∧ hhmmText short h mi ≠ txt!"midnight" := by
    unfold hhmmText hourText
    cases short
    · exact h1 _ _
    · exact h1 _ _
  unfold hourOf
  rw [if_neg h2.1, if_neg h2.2]
  exact stoi_hhmm hh hmi

def hhmmSpans (lead : Text) (short : Bool) (sfx : Text) : List (Nat × Option (Nat × Nat)) :=
  let a := lead.length
  let q := a + hourSpan short + 2
  let len := q + sfx.length
  [(1, some (0, 0)), (2, some (a, q)), (3, none), (4, none),
   (6, match sfx with | [] => none | 32 :: _ => some (q + 1, len) | _ => some (q, len)), (7, none)]

theorem hhmm_checks : (leadIns.all fun l => [true, false].all fun short => suffixes.all fun s =>
    checkSpans Ast.timeExpr (l ++ hhmmText short 11 11 ++ s.1) (l ++ hhmmText short 11 11 ++ s.1).length (hhmmSpans l short s.1)) = true := by
  decide +kernel

theorem dr_hhmm (l : Text) (short : Bool) (h mi : Nat) (sfx : Text) :
    List.Forall₂ DigitRel (l ++ hhmmText short h mi ++ sfx) (l ++ hhmmText short 11 11 ++ sfx) :=
  dr_append (dr_append (dr_same _) (dr_append (dr_hour short h) dr_two)) (dr_same _)

theorem toLower_hhmm {l : Text} (hl : l ∈ leadIns) {short : Bool} {h mi : Nat} {s : Text × Option Bool} (hs : s ∈ suffixes) :
    toLower (l ++ hhmmText short h mi ++ s.1) = l ++ hhmmText short h mi ++ s.1 := by
  have : leadIns.all (fun l => toLower l == l) = true := by decide
  have hl' : toLower l = l := by simpa using List.all_eq_true.1 this l hl
  simp only [hhmmText, toLower_append, toLower_hourText, toLower_two, toLower_suffix hs, hl']

theorem hhmm_found {l : Text} (hl : l ∈ leadIns) {short : Bool} {h mi : Nat} {s : Text × Option Bool} (hs : s ∈ suffixes) :
    ∃ mt, FoundAt0 Ast.timeExpr (l ++ hhmmText short h mi ++ s.1) mt ∧ mt.str 0 = l ++ hhmmText short h mi ++ s.1 ∧
      mt.str 1 = [] ∧ mt.str 2 = hhmmText short h mi ∧ mt.str 3 = [] ∧ mt.str 4 = [] ∧
      (mt.str 6 = (match s.1 with | 32 :: w => w | w => w)) ∧ mt.str 7 = [] := by
  have hc := List.all_eq_true.1 (List.all_eq_true.1 (List.all_eq_true.1 hhmm_checks l hl) short (by cases short <;> simp)) s hs
  have hdr := dr_hhmm l short h mi s.1
  obtain ⟨mt, hf, -, h0, hg⟩ := foundSpans _ _ _ timeExpr_blind hc hdr
  rw [← hdr.length_eq, List.take_length] at h0
  refine ⟨mt, hf, h0, ?_, ?_, ?_, ?_, ?_, ?_⟩
  · exact hg (1, some (0, 0)) (by simp [hhmmSpans]) (by decide)
  · have := hg (2, some (l.length, l.length + hourSpan short + 2)) (by simp [hhmmSpans]) (by simp)
    rw [this]
    simp only [leadIns, List.mem_cons, List.not_mem_nil, or_false] at hl
    rcases hl with rfl | rfl | rfl <;> cases short <;> rfl
  · exact hg (3, none) (by simp [hhmmSpans]) (by decide)
  · exact hg (4, none) (by simp [hhmmSpans]) (by decide)
  · have := hg (6, _) (by
      simp only [hhmmSpans, List.mem_cons, Prod.mk.injEq, List.not_mem_nil, or_false]
      exact .inr (.inr (.inr (.inr (.inl ⟨trivial, rfl⟩))))) (by simp)
    rw [this]
    simp only [suffixes, List.mem_cons, List.not_mem_nil, or_false] at hs
    simp only [leadIns, List.mem_cons, List.not_mem_nil, or_false] at hl
    rcases hl with rfl | rfl | rfl <;>
    rcases hs with rfl | rfl | rfl | rfl | rfl | rfl | rfl | rfl | rfl | rfl | rfl | rfl <;> cases short <;> rfl
  · exact hg (7, none) (by simp [hhmmSpans]) (by decide)

/-- **C70 (times without a colon).** `930`, `1730`, `0930 pm`, `at 1330`, `from 930am`: three or four digits with a value above
100, hour up to 24 (up to 12 with am/pm), minutes below 60: exactly one result, covering the whole text, on the reference date,
at that hour and minute. -/
theorem c70_without_colon (rt : Rt) (hrt : rt.Benign) (g : Globals) (ref : PTime) (x : DateTime) (hx : RefReads ref x)
    (l : Text) (hl : l ∈ leadIns) (short : Bool) (h mi : Nat) (s : Text × Option Bool) (hs : s ∈ suffixes)
    (hh : h ≤ 24) (h9 : short = true → h ≤ 9) (h12 : s.1 ≠ [] → h ≤ 12) (hmi : mi < 60) (h100 : 100 < 100 * h + mi) :
    Yields (execute rt timeExprParser g (l ++ hhmmText short h mi ++ s.1) ref) (l ++ hhmmText short h mi ++ s.1) (fun r =>
      DateIs r.startDate x.date ∧ TimeIs r.startDate (hour24 h s.2) mi 0 ∧ r.hasEnd = false ∧
      r.startDate.certain .hour = true ∧ r.startDate.certain .year = false ∧ r.getTag .timeExpression = true) := by
  obtain ⟨mt, hf, g0, g1, g2, g3, g4, g6, g7⟩ := hhmm_found hl (short := short) (h := h) (mi := mi) hs
  have hb : h < (if short then 10 else 100) := by
    cases short
    · simp; omega
    · have := h9 rfl; simp; omega
  have hm : minuteOf ((100 * h + mi : Nat) : Int) (mt.str 3) = .ok ((h : Int), (mi : Int)) := by
    unfold minuteOf
    rw [g3]
    simp only [List.isEmpty_nil, Bool.not_true, Bool.false_eq_true, if_false]
    rw [if_pos (by omega)]
    have e1 : Int.tdiv ((100 * h + mi : Nat) : Int) 100 = h := by
      rw [Int.tdiv_eq_ediv_of_nonneg (by omega)]; omega
    have e2 : Int.tmod ((100 * h + mi : Nat) : Int) 100 = mi := by
      rw [Int.tmod_eq_emod_of_nonneg (by omega)]; omega
    rw [e1, e2]; rfl
  obtain ⟨res, he, e1, e2, e3, e4, e5, e6, e7, e8⟩ := clock_extract_of (rt := rt) (g := g) (tx := l ++ hhmmText short h mi ++ s.1) (idx := 0)
    (h := h) (mi := mi) (s := 0) (k := hour24 h s.2) hx hf.start g1 (by rw [g2]; exact hourOf_hhmm hb (by omega)) hm
    (.inl ⟨g4, rfl⟩) hh hmi (by decide) (suffix_hour hs h12 g6) g7
  refine yields_of hrt timeExpr_pattern timeExpr_min (toLower_hhmm hl hs) hf (pureExtract_ok he) ?_ ?_ ?_ ?_
  · refine hasPossibleDates_of_year ?_
    rw [e3.1]
    have := hx.valid.1.1
    simp only [DateTime.date]
    omega
  · exact e1
  · rw [e2, g0]
  · exact ⟨e3, e4, e5, e6, e7, e8⟩

/-- **C70 (refuted part).** Below 100 the digits are taken for an hour: `0005` to `0024` (five to twenty-four minutes past
midnight) yield the full hours 5 to 24. -/
theorem c70_after_midnight_refuted (rt : Rt) (hrt : rt.Benign) (g : Globals) (ref : PTime) (x : DateTime) (hx : RefReads ref x)
    (l : Text) (hl : l ∈ leadIns) (mi : Nat) (hmi : mi ≤ 24) :
    Yields (execute rt timeExprParser g (l ++ hhmmText false 0 mi) ref) (l ++ hhmmText false 0 mi) (fun r =>
      DateIs r.startDate x.date ∧ TimeIs r.startDate mi 0 0) := by
  obtain ⟨mt, hf, g0, g1, g2, g3, g4, g6, g7⟩ := hhmm_found hl (short := false) (h := 0) (mi := mi) (s := ([], none)) (by decide)
  have el : toLower (l ++ hhmmText false 0 mi) = l ++ hhmmText false 0 mi := by
    have := toLower_hhmm hl (short := false) (h := 0) (mi := mi) (s := ([], none)) (by decide)
    simpa using this
  simp only [List.append_nil] at hf g0
  have hm : minuteOf ((100 * 0 + mi : Nat) : Int) (mt.str 3) = .ok ((mi : Int), ((0 : Nat) : Int)) := by
    unfold minuteOf
    rw [g3]
    simp only [List.isEmpty_nil, Bool.not_true, Bool.false_eq_true, if_false]
    rw [if_neg (by omega), show ((100 * 0 + mi : Nat) : Int) = mi by omega]; rfl
  obtain ⟨res, he, e1, e2, e3, e4, e5, e6, e7, e8⟩ := clock_extract_of (rt := rt) (g := g) (tx := l ++ hhmmText false 0 mi) (idx := 0)
    (h := mi) (mi := 0) (s := 0) (k := mi) hx hf.start g1 (by rw [g2]; exact hourOf_hhmm (by simp) (by omega)) hm
    (.inl ⟨g4, rfl⟩) (by omega) (by decide) (by decide) (.inl ⟨g6, rfl⟩) g7
  refine yields_of hrt timeExpr_pattern timeExpr_min el hf (pureExtract_ok he) ?_ ?_ ?_ ?_
  · refine hasPossibleDates_of_year ?_
    rw [e3.1]
    have := hx.valid.1.1
    simp only [DateTime.date]
    omega
  · exact e1
  · rw [e2, g0]
  · exact ⟨e3, e4⟩

/-! ## `at`, `from` -/

def leadSpans (lead : Text) (short : Bool) (t : Tail) (sfx : Text) : List (Nat × Option (Nat × Nat)) :=
  let a := lead.length
  let p := a + hourSpan short
  let q := p + t.text.length
  let len := q + sfx.length
  [(1, some (0, 0)), (2, some (a, p)),
   (3, match t with | .none => none | _ => some (p + 1, p + 3)),
   (4, match t with | .seconds _ _ => some (p + 4, p + 6) | _ => none),
   (6, match sfx with | [] => none | 32 :: _ => some (q + 1, len) | _ => some (q, len)),
   (7, none)]

theorem lead_checks : ([txt!"at ", txt!"from "].all fun l => [true, false].all fun short => [Tail.none, .minutes 11, .seconds 11 11].all fun t =>
    suffixes.all fun s =>
    checkSpans Ast.timeExpr (l ++ clockText short 11 t s.1) (l ++ clockText short 11 t s.1).length (leadSpans l short t s.1)) = true := by
  decide +kernel

theorem dr_lead (l : Text) (short : Bool) (h : Nat) (t : Tail) (sfx : Text) :
    List.Forall₂ DigitRel (l ++ clockText short h t sfx) (l ++ clockText short 11 t.ones sfx) :=
  dr_append (dr_same _) (dr_clock short h t sfx)

theorem toLower_lead {l : Text} (hl : l ∈ [txt!"at ", txt!"from "]) {short : Bool} {h : Nat} {t : Tail} {s : Text × Option Bool} (hs : s ∈ suffixes) :
    toLower (l ++ clockText short h t s.1) = l ++ clockText short h t s.1 := by
  have : [txt!"at ", txt!"from "].all (fun l => toLower l == l) = true := by decide
  have hl' : toLower l = l := by simpa using List.all_eq_true.1 this l hl
  rw [toLower_append, hl', toLower_clock hs]

theorem lead_found {l : Text} (hl : l ∈ [txt!"at ", txt!"from "]) {short : Bool} {h : Nat} {t : Tail} {s : Text × Option Bool} (hs : s ∈ suffixes) :
    ∃ mt, FoundAt0 Ast.timeExpr (l ++ clockText short h t s.1) mt ∧ mt.str 0 = l ++ clockText short h t s.1 ∧
      mt.str 1 = [] ∧ mt.str 2 = hourText short h ∧
      mt.str 3 = (match t with | .none => [] | .minutes mi => two mi | .seconds mi _ => two mi) ∧
      mt.str 4 = (match t with | .seconds _ s => two s | _ => []) ∧
      (mt.str 6 = (match s.1 with | 32 :: w => w | w => w)) ∧ mt.str 7 = [] := by
  have hc := List.all_eq_true.1 (List.all_eq_true.1 (List.all_eq_true.1 (List.all_eq_true.1 lead_checks l hl) short (by cases short <;> simp))
    t.ones (by cases t <;> simp [Tail.ones])) s hs
  have hdr := dr_lead l short h t s.1
  obtain ⟨mt, hf, -, h0, hg⟩ := foundSpans _ _ _ timeExpr_blind hc hdr
  rw [← hdr.length_eq, List.take_length] at h0
  simp only [List.mem_cons, List.not_mem_nil, or_false] at hl
  refine ⟨mt, hf, h0, ?_, ?_, ?_, ?_, ?_, ?_⟩
  · exact hg (1, some (0, 0)) (by simp [leadSpans]) (by decide)
  · have := hg (2, some (l.length, l.length + hourSpan short)) (by simp [leadSpans]) (by simp)
    rw [this]
    rcases hl with rfl | rfl <;> cases short <;> cases t <;> rfl
  · cases t with
    | none => exact hg (3, none) (by simp [leadSpans, Tail.ones]) (by decide)
    | minutes mi =>
      have := hg (3, some (l.length + hourSpan short + 1, l.length + hourSpan short + 3)) (by simp [leadSpans, Tail.ones]) (by simp)
      rw [this]; rcases hl with rfl | rfl <;> cases short <;> rfl
    | seconds mi s =>
      have := hg (3, some (l.length + hourSpan short + 1, l.length + hourSpan short + 3)) (by simp [leadSpans, Tail.ones]) (by simp)
      rw [this]; rcases hl with rfl | rfl <;> cases short <;> rfl
  · cases t with
    | none => exact hg (4, none) (by simp [leadSpans, Tail.ones]) (by decide)
    | minutes mi => exact hg (4, none) (by simp [leadSpans, Tail.ones]) (by decide)
    | seconds mi s =>
      have := hg (4, some (l.length + hourSpan short + 4, l.length + hourSpan short + 6)) (by simp [leadSpans, Tail.ones]) (by simp)
      rw [this]; rcases hl with rfl | rfl <;> cases short <;> rfl
  · have := hg (6, _) (by
      simp only [leadSpans, List.mem_cons, Prod.mk.injEq, List.not_mem_nil, or_false]
      exact .inr (.inr (.inr (.inr (.inl ⟨trivial, rfl⟩))))) (by simp)
    rw [this]
    simp only [suffixes, List.mem_cons, List.not_mem_nil, or_false] at hs
    rcases hl with rfl | rfl <;>
    rcases hs with rfl | rfl | rfl | rfl | rfl | rfl | rfl | rfl | rfl | rfl | rfl | rfl <;> cases short <;> cases t <;> rfl
  · exact hg (7, none) (by simp [leadSpans]) (by decide)

/-- **C70 (at, from).** `at 5:30 pm`, `from 17:30`: the result is the one of the time alone (C33) and covers the whole text. -/
theorem c70_at_from (rt : Rt) (hrt : rt.Benign) (g : Globals) (ref : PTime) (x : DateTime) (hx : RefReads ref x)
    (l : Text) (hl : l ∈ [txt!"at ", txt!"from "])
    (short : Bool) (h : Nat) (t : Tail) (s : Text × Option Bool) (hs : s ∈ suffixes)
    (hh : h ≤ 24) (h9 : short = true → h ≤ 9) (h12 : s.1 ≠ [] → h ≤ 12) (hmi : t.minute < 60) (hsec : t.second < 60) :
    Yields (execute rt timeExprParser g (l ++ clockText short h t s.1) ref) (l ++ clockText short h t s.1) (fun r =>
      DateIs r.startDate x.date ∧ TimeIs r.startDate (hour24 h s.2) t.minute t.second ∧ r.hasEnd = false ∧
      r.startDate.certain .hour = true ∧ r.startDate.certain .year = false ∧ r.getTag .timeExpression = true) := by
  obtain ⟨mt, hf, g0, g1, g2, g3, g4, g6, g7⟩ := lead_found hl (short := short) (h := h) (t := t) hs
  have hb : h < (if short then 10 else 100) := by
    cases short
    · simp; omega
    · have := h9 rfl; simp; omega
  obtain ⟨res, he, e1, e2, e3, e4, e5, e6, e7, e8⟩ := clock_extract (rt := rt) (g := g) (tx := l ++ clockText short h t s.1) (idx := 0)
    (h := h) (mi := t.minute) (s := t.second) (k := hour24 h s.2) hx hf.start g1 (by rw [g2]; exact hourOf_text hb)
    (by rw [g3]; cases t with
      | none => exact .inl ⟨rfl, rfl, by omega⟩
      | minutes mi => exact .inr ⟨two_ne _, stoi_two (by simp [Tail.minute] at hmi; omega)⟩
      | seconds mi s => exact .inr ⟨two_ne _, stoi_two (by simp [Tail.minute] at hmi; omega)⟩)
    (by rw [g4]; cases t with
      | none => exact .inl ⟨rfl, rfl⟩
      | minutes mi => exact .inl ⟨rfl, rfl⟩
      | seconds mi s => exact .inr ⟨two_ne _, stoi_two (by simp [Tail.second] at hsec; omega)⟩)
    hh hmi hsec (suffix_hour hs h12 g6) g7
  refine yields_of hrt timeExpr_pattern timeExpr_min (toLower_lead hl hs) hf (pureExtract_ok he) ?_ ?_ ?_ ?_
  · refine hasPossibleDates_of_year ?_
    rw [e3.1]
    have := hx.valid.1.1
    simp only [DateTime.date]
    omega
  · exact e1
  · rw [e2, g0]
  · exact ⟨e3, e4, e5, e6, e7, e8⟩

/-- The phrases are real ones. -/
example : txt!"at " ++ clockText true 5 (.minutes 30) txt!" pm" = txt!"at 5:30 pm" ∧ txt!"from " ++ hhmmText true 9 30 ++ txt!"am" = txt!"from 930am" ∧
    hhmmText false 0 5 = txt!"0005" := by decide

/-! ## `noon`, `midnight` -/

/-- Words for hours, after `at`, `from` or nothing. -/
def hourWords : List (Text × Nat) :=
  [(txt!"noon", 12), (txt!"at noon", 12), (txt!"from noon", 12), (txt!"midnight", 0), (txt!"at midnight", 0), (txt!"from midnight", 0)]

theorem hourWords_check : (hourWords.all fun w => toLower w.1 == w.1 &&
    checkAt0 Ast.timeExpr w.1 [(0, w.1), (1, []), (2, if w.2 = 12 then txt!"noon" else txt!"midnight"), (3, []), (4, []), (6, []), (7, [])]) = true := by
  decide +kernel

/-- **C70 (noon, midnight).** The time-expression parser reads `noon` as 12:00 and `midnight` as 0:00 of the reference date. -/
theorem c70_noon_midnight (rt : Rt) (hrt : rt.Benign) (g : Globals) (ref : PTime) (x : DateTime) (hx : RefReads ref x) :
    ∀ w ∈ hourWords, Yields (execute rt timeExprParser g w.1 ref) w.1 (fun r =>
      DateIs r.startDate x.date ∧ TimeIs r.startDate w.2 0 0 ∧ r.hasEnd = false ∧
      r.startDate.certain .hour = true ∧ r.startDate.certain .year = false ∧ r.getTag .timeExpression = true) := by
  intro w hw
  have hc := List.all_eq_true.1 hourWords_check w hw
  rw [Bool.and_eq_true] at hc
  obtain ⟨mt, hf, hg⟩ := foundAt0 _ hc.2
  have g0 := hg (0, w.1) (by simp)
  have g1 := hg (1, []) (by simp)
  have g2 := hg (2, if w.2 = 12 then txt!"noon" else txt!"midnight") (by simp)
  have g3 := hg (3, []) (by simp)
  have g4 := hg (4, []) (by simp)
  have g6 := hg (6, []) (by simp)
  have g7 := hg (7, []) (by simp)
  have h2 : hourOf (mt.str 2) = .ok (w.2 : Int) := by
    rw [g2]
    simp only [hourWords, List.mem_cons, List.not_mem_nil, or_false] at hw
    rcases hw with rfl | rfl | rfl | rfl | rfl | rfl <;> rfl
  have hle : w.2 ≤ 24 := by
    simp only [hourWords, List.mem_cons, List.not_mem_nil, or_false] at hw
    rcases hw with rfl | rfl | rfl | rfl | rfl | rfl <;> decide
  obtain ⟨res, he, e1, e2, e3, e4, e5, e6, e7, e8⟩ := clock_extract (rt := rt) (g := g) (tx := w.1) (idx := 0)
    (h := w.2) (mi := 0) (s := 0) (k := w.2) hx hf.start g1 h2 (.inl ⟨g3, rfl, by omega⟩) (.inl ⟨g4, rfl⟩) hle (by decide) (by decide)
    (.inl ⟨g6, rfl⟩) g7
  refine yields_of hrt timeExpr_pattern timeExpr_min (by simpa using hc.1) hf (pureExtract_ok he) ?_ ?_ ?_ ?_
  · refine hasPossibleDates_of_year ?_
    rw [e3.1]
    have := hx.valid.1.1
    simp only [DateTime.date]
    omega
  · exact e1
  · rw [e2, g0]
  · exact ⟨e3, e4, e5, e6, e7, e8⟩

end Chrono.Props
