import Verif.Props.P16_Clock
/-!
# C33-C35: written clock times and ranges
-/
namespace Chrono.Props
open Chrono Chrono.Spec Chrono.Boost

/-! ## Specification: how clock times are written -/

/-- What may follow a time: its text, and whether it says am (`some false`), pm (`some true`) or neither. -/
def suffixes : List (Text × Option Bool) :=
  [(txt!"", none), (txt!" o'clock", none), (txt!"am", some false), (txt!" am", some false), (txt!"a.m.", some false), (txt!" a.m.", some false),
   (txt!"pm", some true), (txt!" pm", some true), (txt!"p.m.", some true), (txt!" p.m.", some true), (txt!" a", some false), (txt!" p", some true)]

/-- The hour on the 24-hour clock. -/
def hour24 (h : Nat) : Option Bool → Nat
  | none => h
  | some false => h % 12
  | some true => h % 12 + 12

/-- Minutes and seconds, if written. -/
inductive Tail where
  | none | minutes (mi : Nat) | seconds (mi s : Nat)

def Tail.text : Tail → Text
  | .none => []
  | .minutes mi => txt!":" ++ two mi
  | .seconds mi s => txt!":" ++ two mi ++ txt!":" ++ two s
def Tail.minute : Tail → Nat
  | .none => 0
  | .minutes mi => mi
  | .seconds mi _ => mi
def Tail.second : Tail → Nat
  | .seconds _ s => s
  | _ => 0
def Tail.ones : Tail → Tail
  | .none => .none
  | .minutes _ => .minutes 11
  | .seconds _ _ => .seconds 11 11

/-- The hour in one or two digits. -/
def hourText (short : Bool) (h : Nat) : Text := if short then [dig h] else two h

/-- A written clock time, such as `5:30 pm`, `05 am`, `17:30:15`. -/
def clockText (short : Bool) (h : Nat) (t : Tail) (sfx : Text) : Text := hourText short h ++ t.text ++ sfx

example : clockText true 5 (.minutes 30) txt!" pm" = txt!"5:30 pm" ∧ hour24 5 (some true) = 17 ∧ hour24 12 (some false) = 0 ∧
    hour24 12 (some true) = 12 := by decide

/-! ## Evaluation on representatives -/

def hourSpan (short : Bool) : Nat := if short then 1 else 2

def clockSpans (short : Bool) (t : Tail) (sfx : Text) : List (Nat × Option (Nat × Nat)) :=
  let p := hourSpan short
  let len := (clockText short 11 t sfx).length
  let q := p + t.text.length
  [(1, some (0, 0)), (2, some (0, p)),
   (3, match t with | .none => none | _ => some (p + 1, p + 3)),
   (4, match t with | .seconds _ _ => some (p + 4, p + 6) | _ => none),
   (6, match sfx with | [] => none | 32 :: _ => some (q + 1, len) | _ => some (q, len)),
   (7, none)]

theorem clock_checks : ([true, false].all fun short => [Tail.none, .minutes 11, .seconds 11 11].all fun t => suffixes.all fun s =>
    checkSpans Ast.timeExpr (clockText short 11 t s.1) (clockText short 11 t s.1).length (clockSpans short t s.1)) = true := by
  decide +kernel

theorem timeExpr_blind : Ast.timeExpr.digitBlind = true := by decide +kernel

theorem dr_hour (short : Bool) (h : Nat) : List.Forall₂ DigitRel (hourText short h) (hourText short 11) := by
  cases short
  · exact dr_two
  · exact .cons (digitRel_dig _ (by decide)) .nil

theorem dr_tail (t : Tail) : List.Forall₂ DigitRel t.text t.ones.text := by
  cases t with
  | none => exact .nil
  | minutes mi => exact dr_append (dr_same _) dr_two
  | seconds mi s => exact dr_append (dr_append (dr_append (dr_same _) dr_two) (dr_same _)) dr_two

theorem dr_clock (short : Bool) (h : Nat) (t : Tail) (sfx : Text) :
    List.Forall₂ DigitRel (clockText short h t sfx) (clockText short 11 t.ones sfx) :=
  dr_append (dr_append (dr_hour short h) (dr_tail t)) (dr_same _)

theorem toLower_hourText (short : Bool) (h : Nat) : toLower (hourText short h) = hourText short h := by
  cases short
  · exact toLower_two h
  · simp [hourText, toLower, lowerB_dig]
theorem toLower_tail (t : Tail) : toLower t.text = t.text := by
  cases t with
  | none => rfl
  | minutes mi => simp only [Tail.text, toLower_append, toLower_two]; rfl
  | seconds mi s => simp only [Tail.text, toLower_append, toLower_two]; rfl

theorem toLower_suffix {s : Text × Option Bool} (h : s ∈ suffixes) : toLower s.1 = s.1 := by
  have : suffixes.all (fun s => toLower s.1 == s.1) = true := by decide
  simpa using List.all_eq_true.1 this s h

theorem toLower_clock {short : Bool} {h : Nat} {t : Tail} {s : Text × Option Bool} (hs : s ∈ suffixes) :
    toLower (clockText short h t s.1) = clockText short h t s.1 := by
  simp only [clockText, toLower_append, toLower_hourText, toLower_tail, toLower_suffix hs]

theorem digits_one (n : Nat) : stoi [dig n] = .ok ((n % 10 : Nat) : Int) := by
  have hd : isDigitB (dig n) = true := by
    rw [isDigitB_iff]; unfold dig
    have := Nat.mod_lt n (show 10 > 0 by decide); omega
  rw [stoi_digits (by simp) (by simpa using hd)]
  have : digitsVal 0 [dig n] = n % 10 := by
    show 0 * 10 + (dig n - 48) = _
    unfold dig; omega
  rw [this, if_pos (by have := Nat.mod_lt n (show 10 > 0 by decide); omega)]

theorem hourOf_text {short : Bool} {h : Nat} (hh : h < (if short then 10 else 100)) : hourOf (hourText short h) = .ok (h : Int) := by
  have h1 : ∀ c, isDigitB c = true → ∀ w, c :: w ≠ txt!"noon" ∧ c :: w ≠ txt!"midnight" := by
    intro c hc w
    rw [isDigitB_iff] at hc
    constructor <;> (intro e; injection e with e _; omega)
  have hd : isDigitB (dig h) = true ∧ isDigitB (dig (h / 10)) = true := by
    constructor <;> (rw [isDigitB_iff]; unfold dig; omega)
  unfold hourOf hourText
  cases short
  · simp only [Bool.false_eq_true, if_false] at hh ⊢
    rw [if_neg (show ¬ two h = _ from (h1 _ hd.2 _).1), if_neg (show ¬ two h = _ from (h1 _ hd.2 _).2)]
    exact stoi_two hh
  · simp only [if_true] at hh ⊢
    rw [if_neg (h1 _ hd.1 _).1, if_neg (h1 _ hd.1 _).2, digits_one, Nat.mod_eq_of_lt hh]

/-- The extraction of a single clock time, given what the hour and minute fields amount to, anywhere in a text. -/
theorem clock_extract_at {rt : Rt} {g : Globals} {tx : Text} {mt : Match} {ref : PTime} {x : DateTime} {idx h mi s k : Nat} {H : Int} {T : Text}
    (hx : RefReads ref x) (hp : precededByWord mt tx = .ok false) (hsub : substr (mt.str 0) (mt.lengthOf 1) = .ok T) (h2 : hourOf (mt.str 2) = .ok H)
    (hm : minuteOf H (mt.str 3) = .ok ((h : Int), (mi : Int)))
    (h4 : mt.str 4 = [] ∧ s = 0 ∨ mt.str 4 ≠ [] ∧ stoi (mt.str 4) = .ok (s : Int))
    (hh : h ≤ 24) (hmi : mi < 60) (hs : s < 60)
    (h6 : mt.str 6 = [] ∧ k = h ∨ mt.str 6 ≠ [] ∧ h ≤ 12 ∧ meridiem (firstChar (mt.str 6)) h = (k : Int))
    (h7 : mt.str 7 = []) :
    ∃ res, timeExprExtract rt g tx mt ref idx = .ok res ∧ res.index = PResult.toU32 idx ∧ res.text = T ∧
      DateIs res.startDate x.date ∧ TimeIs res.startDate k mi s ∧ res.hasEnd = false ∧ res.startDate.certain .hour = true ∧
      res.startDate.certain .year = false ∧ res.getTag .timeExpression = true ∧ isTimeOnly res = true := by
  obtain ⟨y1, y2, y3, -⟩ := Date.year_of_ymd hx.date
  have hf : ∃ o : Int, fromSecond mt = .ok (some o) ∧ (mt.str 4 ≠ [] → o = s) := by
    unfold fromSecond
    rcases h4 with ⟨e, rfl⟩ | ⟨hne, e⟩
    · rw [e]; exact ⟨-1, rfl, fun h => absurd rfl h⟩
    · rw [if_neg (by simpa using hne), e]
      simp only [Out.bind_ok]
      rw [toU16_small (by omega), if_neg (by omega)]
      exact ⟨s, rfl, fun _ => rfl⟩
  obtain ⟨o, hf, ho⟩ := hf
  unfold timeExprExtract
  rw [hsub]
  simp only [Out.bind_ok]
  rw [hp]
  simp only [Out.bind_ok, Bool.false_eq_true, if_false]
  rw [hf]
  simp only [Out.bind_ok]
  rw [h2]
  simp only [Out.bind_ok]
  rw [hm]
  simp only [Out.bind_ok]
  rw [if_neg (by omega), if_neg (by omega), h7]
  simp only [List.isEmpty_nil, if_true]
  have fin : ∀ k' : Int, k' = k → ∃ res, (setStart ref (if (mt.str 4).isEmpty = true then PResult.mk' ref idx T
        else (PResult.mk' ref idx T).onStart (·.set .sec o)) k' mi >>= fun r => pure r) = Out.ok res ∧
      res.index = PResult.toU32 idx ∧ res.text = T ∧
      DateIs res.startDate x.date ∧ TimeIs res.startDate k mi s ∧ res.hasEnd = false ∧ res.startDate.certain .hour = true ∧
      res.startDate.certain .year = false ∧ res.getTag .timeExpression = true ∧ isTimeOnly res = true := by
    rintro _ rfl
    unfold setStart
    rw [y1, y2, y3]
    simp only [Out.bind_ok]
    refine ⟨_, rfl, ?_⟩
    rcases h4 with ⟨e, rfl⟩ | ⟨hne, e⟩
    · rw [e]
      simp only [List.isEmpty_nil, if_true]
      refine ⟨?_, ?_, ?_, ?_, ?_, ?_, ?_, ?_, ?_⟩
      · simp [PResult.mk']
      · simp
      · simp [DateIs, DateTime.date, get_imply]
      · simp [TimeIs, get_imply]
      · simp
      · simp [Comps.certain, Comps.certainKey]
      · simp [Comps.certain, Comps.certainKey]
      · simp [PResult.getTag, PResult.setTag]
      · simp [isTimeOnly, Comps.certain, Comps.certainKey]
    · rw [if_neg (by simpa using hne)]
      have ho := ho hne
      subst ho
      refine ⟨?_, ?_, ?_, ?_, ?_, ?_, ?_, ?_, ?_⟩
      · simp [PResult.mk']
      · simp
      · simp [DateIs, DateTime.date, get_imply]
      · simp [TimeIs, get_imply]
      · simp
      · simp [Comps.certain, Comps.certainKey]
      · simp [Comps.certain, Comps.certainKey]
      · simp [PResult.getTag, PResult.setTag]
      · simp [isTimeOnly, Comps.certain, Comps.certainKey]
  rcases h6 with ⟨e, hk⟩ | ⟨hne, h12, e⟩
  · rw [e]
    exact fin h (by rw [hk])
  · rw [if_neg (by omega), if_neg (c := (mt.str 6).isEmpty = true) (by simpa using hne)]
    exact fin _ e

/-- The extraction of a single clock time, given what the hour and minute fields amount to. -/
theorem clock_extract_of {rt : Rt} {g : Globals} {tx : Text} {mt : Match} {ref : PTime} {x : DateTime} {idx h mi s k : Nat} {H : Int}
    (hx : RefReads ref x) (hpos : mt.start = 0) (h1 : mt.str 1 = []) (h2 : hourOf (mt.str 2) = .ok H)
    (hm : minuteOf H (mt.str 3) = .ok ((h : Int), (mi : Int)))
    (h4 : mt.str 4 = [] ∧ s = 0 ∨ mt.str 4 ≠ [] ∧ stoi (mt.str 4) = .ok (s : Int))
    (hh : h ≤ 24) (hmi : mi < 60) (hs : s < 60)
    (h6 : mt.str 6 = [] ∧ k = h ∨ mt.str 6 ≠ [] ∧ h ≤ 12 ∧ meridiem (firstChar (mt.str 6)) h = (k : Int))
    (h7 : mt.str 7 = []) :
    ∃ res, timeExprExtract rt g tx mt ref idx = .ok res ∧ res.index = PResult.toU32 idx ∧ res.text = mt.str 0 ∧
      DateIs res.startDate x.date ∧ TimeIs res.startDate k mi s ∧ res.hasEnd = false ∧ res.startDate.certain .hour = true ∧
      res.startDate.certain .year = false ∧ res.getTag .timeExpression = true := by
  have hsub : substr (mt.str 0) (mt.lengthOf 1) = .ok (mt.str 0) := by
    unfold Match.lengthOf substr; rw [h1]; simp
  have hp : precededByWord mt tx = .ok false := by
    unfold precededByWord Match.position; rw [if_neg (by omega)]; rfl
  obtain ⟨res, r0, r1, r2, r3, r4, r5, r6, r7, r8, -⟩ := clock_extract_at hx hp hsub h2 hm h4 hh hmi hs h6 h7
  exact ⟨res, r0, r1, r2, r3, r4, r5, r6, r7, r8⟩

/-- The extraction of a single clock time. -/
theorem clock_extract {rt : Rt} {g : Globals} {tx : Text} {mt : Match} {ref : PTime} {x : DateTime} {idx h mi s k : Nat}
    (hx : RefReads ref x) (hpos : mt.start = 0) (h1 : mt.str 1 = []) (h2 : hourOf (mt.str 2) = .ok (h : Int))
    (h3 : mt.str 3 = [] ∧ mi = 0 ∧ h < 100 ∨ mt.str 3 ≠ [] ∧ stoi (mt.str 3) = .ok (mi : Int))
    (h4 : mt.str 4 = [] ∧ s = 0 ∨ mt.str 4 ≠ [] ∧ stoi (mt.str 4) = .ok (s : Int))
    (hh : h ≤ 24) (hmi : mi < 60) (hs : s < 60)
    (h6 : mt.str 6 = [] ∧ k = h ∨ mt.str 6 ≠ [] ∧ h ≤ 12 ∧ meridiem (firstChar (mt.str 6)) h = (k : Int))
    (h7 : mt.str 7 = []) :
    ∃ res, timeExprExtract rt g tx mt ref idx = .ok res ∧ res.index = PResult.toU32 idx ∧ res.text = mt.str 0 ∧
      DateIs res.startDate x.date ∧ TimeIs res.startDate k mi s ∧ res.hasEnd = false ∧ res.startDate.certain .hour = true ∧
      res.startDate.certain .year = false ∧ res.getTag .timeExpression = true := by
  have hm : minuteOf (h : Int) (mt.str 3) = .ok ((h : Int), (mi : Int)) := by
    unfold minuteOf
    rcases h3 with ⟨e, rfl, hlt⟩ | ⟨hne, e⟩
    · rw [e]; simp only [List.isEmpty_nil, Bool.not_true, Bool.false_eq_true, if_false]
      rw [if_neg (by omega)]; rfl
    · have : (!(mt.str 3).isEmpty) = true := by simpa using hne
      rw [if_pos this, e]; rfl
  exact clock_extract_of hx hpos h1 h2 hm h4 hh hmi hs h6 h7

/-- The suffix read as am, pm or neither. -/
theorem suffix_hour {s : Text × Option Bool} (hs : s ∈ suffixes) {h : Nat} (h12 : s.1 ≠ [] → h ≤ 12) {g6 : Text}
    (e6 : g6 = (match s.1 with | 32 :: w => w | w => w)) :
    g6 = [] ∧ hour24 h s.2 = h ∨ g6 ≠ [] ∧ h ≤ 12 ∧ meridiem (firstChar g6) h = ((hour24 h s.2 : Nat) : Int) := by
  have m0 : ∀ c, c ≠ 97 → c ≠ 112 → meridiem c (h : Int) = h := by
    intro c h1 h2; unfold meridiem; rw [if_neg h1, if_neg h2]
  have m1 : h ≤ 12 → meridiem 97 (h : Int) = ((h % 12 : Nat) : Int) := by
    intro h1; unfold meridiem; rw [if_pos rfl]; split <;> omega
  have m2 : h ≤ 12 → meridiem 112 (h : Int) = ((h % 12 + 12 : Nat) : Int) := by
    intro h1; unfold meridiem; rw [if_neg (by decide), if_pos rfl]; split <;> omega
  subst e6
  simp only [suffixes, List.mem_cons, List.not_mem_nil, or_false] at hs
  rcases hs with rfl | rfl | rfl | rfl | rfl | rfl | rfl | rfl | rfl | rfl | rfl | rfl
  · exact .inl ⟨rfl, rfl⟩
  · exact .inr ⟨by simp, h12 (by simp), m0 111 (by decide) (by decide)⟩
  all_goals first
    | exact .inr ⟨by simp, h12 (by simp), m1 (h12 (by simp))⟩
    | exact .inr ⟨by simp, h12 (by simp), m2 (h12 (by simp))⟩

/-- What each written time means for the groups. -/
theorem clock_found {short : Bool} {h : Nat} {t : Tail} {s : Text × Option Bool} (hs : s ∈ suffixes) :
    ∃ mt, FoundAt0 Ast.timeExpr (clockText short h t s.1) mt ∧ mt.str 0 = clockText short h t s.1 ∧
      mt.str 1 = [] ∧ mt.str 2 = hourText short h ∧
      mt.str 3 = (match t with | .none => [] | .minutes mi => two mi | .seconds mi _ => two mi) ∧
      mt.str 4 = (match t with | .seconds _ s => two s | _ => []) ∧
      (mt.str 6 = (match s.1 with | 32 :: w => w | w => w)) ∧ mt.str 7 = [] := by
  have hc : checkSpans Ast.timeExpr (clockText short 11 t.ones s.1) (clockText short 11 t.ones s.1).length
      (clockSpans short t.ones s.1) = true := by
    have h0 := clock_checks
    have h1 := List.all_eq_true.1 h0 short (by cases short <;> simp)
    have h2 := List.all_eq_true.1 h1 t.ones (by cases t <;> simp [Tail.ones])
    exact List.all_eq_true.1 h2 s hs
  obtain ⟨mt, hf, -, h0, hg⟩ := foundSpans _ _ _ timeExpr_blind hc (dr_clock short h t s.1)
  have hlen : (clockText short 11 t.ones s.1).length = (clockText short h t s.1).length := (dr_clock short h t s.1).length_eq.symm
  rw [hlen, List.take_length] at h0
  refine ⟨mt, hf, h0, ?_, ?_, ?_, ?_, ?_, ?_⟩
  · exact hg (1, some (0, 0)) (by simp [clockSpans]) (by decide)
  · have := hg (2, some (0, hourSpan short)) (by simp [clockSpans]) (by simp)
    rw [this]
    cases short <;> cases t <;> rfl
  · cases t with
    | none => exact hg (3, none) (by simp [clockSpans, Tail.ones]) (by decide)
    | minutes mi =>
      have := hg (3, some (hourSpan short + 1, hourSpan short + 3)) (by simp [clockSpans, Tail.ones]) (by simp)
      rw [this]; cases short <;> rfl
    | seconds mi s =>
      have := hg (3, some (hourSpan short + 1, hourSpan short + 3)) (by simp [clockSpans, Tail.ones]) (by simp)
      rw [this]; cases short <;> rfl
  · cases t with
    | none => exact hg (4, none) (by simp [clockSpans, Tail.ones]) (by decide)
    | minutes mi => exact hg (4, none) (by simp [clockSpans, Tail.ones]) (by decide)
    | seconds mi s =>
      have := hg (4, some (hourSpan short + 4, hourSpan short + 6)) (by simp [clockSpans, Tail.ones]) (by simp)
      rw [this]; cases short <;> rfl
  · have := hg (6, _) (by
      simp only [clockSpans, List.mem_cons, Prod.mk.injEq, List.not_mem_nil, or_false]
      exact .inr (.inr (.inr (.inr (.inl ⟨trivial, rfl⟩))))) (by simp)
    rw [this]
    simp only [suffixes, List.mem_cons, List.not_mem_nil, or_false] at hs
    rcases hs with rfl | rfl | rfl | rfl | rfl | rfl | rfl | rfl | rfl | rfl | rfl | rfl <;> cases short <;> cases t <;> rfl
  · exact hg (7, none) (by simp [clockSpans]) (by decide)

/-- **C33 (clock times).** Every written time such as `5`, `17:30`, `5:30 pm`, `12 am`, `05:30:15 p.m.`: hour in one or
two digits up to 24 (up to 12 with am/pm), minutes and seconds below 60 in two digits or absent, and any of the
suffixes, yields exactly one result, covering the whole text, on the reference date, at that time on the 24-hour
clock (12 am is 0, 12 pm is 12), with the hour certain, the date not certain, and no end. -/
theorem c33_clock_time (rt : Rt) (hrt : rt.Benign) (g : Globals) (ref : PTime) (x : DateTime) (hx : RefReads ref x)
    (short : Bool) (h : Nat) (t : Tail) (s : Text × Option Bool) (hs : s ∈ suffixes)
    (hh : h ≤ 24) (h9 : short = true → h ≤ 9) (h12 : s.1 ≠ [] → h ≤ 12) (hmi : t.minute < 60) (hsec : t.second < 60) :
    Yields (execute rt timeExprParser g (clockText short h t s.1) ref) (clockText short h t s.1) (fun r =>
      DateIs r.startDate x.date ∧ TimeIs r.startDate (hour24 h s.2) t.minute t.second ∧ r.hasEnd = false ∧
      r.startDate.certain .hour = true ∧ r.startDate.certain .year = false ∧ r.getTag .timeExpression = true) := by
  obtain ⟨mt, hf, g0, g1, g2, g3, g4, g6, g7⟩ := clock_found (short := short) (h := h) (t := t) hs
  have hb : h < (if short then 10 else 100) := by
    cases short
    · simp; omega
    · have := h9 rfl; simp; omega
  obtain ⟨res, he, e1, e2, e3, e4, e5, e6, e7, e8⟩ := clock_extract (rt := rt) (g := g) (tx := clockText short h t s.1) (idx := 0)
    (h := h) (mi := t.minute) (s := t.second) (k := hour24 h s.2) hx hf.start g1 (by rw [g2]; exact hourOf_text hb)
    (by rw [g3]; cases t with
      | none => exact .inl ⟨rfl, rfl, by omega⟩
      | minutes mi => exact .inr ⟨two_ne _, stoi_two (by simp [Tail.minute] at hmi; omega)⟩
      | seconds mi s => exact .inr ⟨two_ne _, stoi_two (by simp [Tail.minute] at hmi; omega)⟩)
    (by rw [g4]; cases t with
      | none => exact .inl ⟨rfl, rfl⟩
      | minutes mi => exact .inl ⟨rfl, rfl⟩
      | seconds mi s => exact .inr ⟨two_ne _, stoi_two (by simp [Tail.second] at hsec; omega)⟩)
    hh hmi hsec
    (suffix_hour hs h12 g6)
    g7
  refine yields_of hrt timeExpr_pattern timeExpr_min (toLower_clock hs) hf (pureExtract_ok he) ?_ ?_ ?_ ?_
  · refine hasPossibleDates_of_year ?_
    rw [e3.1]
    have := hx.valid.1.1
    simp only [DateTime.date]
    omega
  · exact e1
  · rw [e2, g0]
  · exact ⟨e3, e4, e5, e6, e7, e8⟩

end Chrono.Props
