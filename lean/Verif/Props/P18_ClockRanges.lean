import Verif.Props.P17_ClockPhrases
/-!
# C34, C35: written ranges
-/
namespace Chrono.Props
open Chrono Chrono.Spec Chrono.Boost

/-! ## Specification -/

/-- am / pm as written in ranges. -/
def ampmText : Option Bool → Text
  | none => []
  | some false => txt!" am"
  | some true => txt!" pm"

/-- `HH:MM[ am|pm] to HH:MM[ am|pm]`. -/
def rangeText (h mi : Nat) (a : Option Bool) (k mj : Nat) (b : Option Bool) : Text :=
  two h ++ txt!":" ++ two mi ++ ampmText a ++ txt!" to " ++ two k ++ txt!":" ++ two mj ++ ampmText b

example : rangeText 5 30 none 7 45 (some true) = txt!"05:30 to 07:45 pm" := by decide

/-- The hour at which the result starts: a missing am/pm is taken from the end, by adding 12 to anything but 12. -/
def startHour (h : Nat) (a b : Option Bool) : Nat :=
  match a, b with
  | none, some true => if h = 12 then 12 else h + 12
  | _, _ => hour24 h a

/-- The hour at which it ends: a missing am/pm is taken from the start; if that has none either, from the
uninitialised byte `c`. -/
def endHour (c : Nat) (k : Nat) (a b : Option Bool) : Nat :=
  match b, a with
  | some b, _ => hour24 k (some b)
  | none, some false => if k = 12 then 0 else k
  | none, some true => if k = 12 then 12 else k + 12
  | none, none => if c = 97 ∧ k = 12 then 0 else if c = 112 ∧ k ≠ 12 then k + 12 else k

/-! ## Evaluation on representatives -/

def ampmLen (a : Option Bool) : Nat := (ampmText a).length

def rangeSpans (a b : Option Bool) : List (Nat × Option (Nat × Nat)) :=
  let p := 5 + ampmLen a
  [(1, some (0, 0)), (2, some (0, 2)), (3, some (3, 5)), (4, none), (6, if a = none then none else some (6, 8)),
   (7, some (p + 1, p + 9 + ampmLen b)), (10, some (p + 4, p + 6)), (11, some (p + 7, p + 9)), (12, none),
   (14, if b = none then none else some (p + 10, p + 12))]

theorem range_checks : ([none, some false, some true].all fun a => [none, some false, some true].all fun b =>
    checkSpans Ast.timeExpr (rangeText 11 11 a 11 11 b) (rangeText 11 11 a 11 11 b).length (rangeSpans a b)) = true := by
  decide +kernel

theorem dr_range (h mi : Nat) (a : Option Bool) (k mj : Nat) (b : Option Bool) :
    List.Forall₂ DigitRel (rangeText h mi a k mj b) (rangeText 11 11 a 11 11 b) := by
  have d2 : ∀ n, List.Forall₂ DigitRel (two n) (two 11) := fun n => dr_two
  exact dr_append (dr_append (dr_append (dr_append (dr_append (dr_append (dr_append (dr_append (d2 h) (dr_same _)) (d2 mi)) (dr_same _))
    (dr_same _)) (d2 k)) (dr_same _)) (d2 mj)) (dr_same _)

theorem toLower_range (h mi : Nat) (a : Option Bool) (k mj : Nat) (b : Option Bool) :
    toLower (rangeText h mi a k mj b) = rangeText h mi a k mj b := by
  have ha : ∀ a, toLower (ampmText a) = ampmText a := by intro a; rcases a with _ | _ | _ <;> rfl
  simp only [rangeText, toLower_append, toLower_two, ha]
  rfl

theorem range_found (h mi : Nat) (a : Option Bool) (k mj : Nat) (b : Option Bool) :
    ∃ mt, FoundAt0 Ast.timeExpr (rangeText h mi a k mj b) mt ∧ mt.str 0 = rangeText h mi a k mj b ∧
      mt.str 1 = [] ∧ mt.str 2 = two h ∧ mt.str 3 = two mi ∧ mt.str 4 = [] ∧ mt.str 6 = (ampmText a).drop 1 ∧
      mt.str 7 = txt!"to " ++ two k ++ txt!":" ++ two mj ++ ampmText b ∧ mt.str 10 = two k ∧ mt.str 11 = two mj ∧
      mt.str 12 = [] ∧ mt.str 14 = (ampmText b).drop 1 := by
  have hc : checkSpans Ast.timeExpr (rangeText 11 11 a 11 11 b) (rangeText 11 11 a 11 11 b).length (rangeSpans a b) = true := by
    have h1 := List.all_eq_true.1 range_checks a (by rcases a with _ | _ | _ <;> simp)
    exact List.all_eq_true.1 h1 b (by rcases b with _ | _ | _ <;> simp)
  obtain ⟨mt, hf, -, h0, hg⟩ := foundSpans _ _ _ timeExpr_blind hc (dr_range h mi a k mj b)
  rw [← (dr_range h mi a k mj b).length_eq, List.take_length] at h0
  have mem : ∀ i (hi : i < 10), (rangeSpans a b)[i]'hi ∈ rangeSpans a b := fun i hi => List.getElem_mem _
  refine ⟨mt, hf, h0, ?_, ?_, ?_, ?_, ?_, ?_, ?_, ?_, ?_, ?_⟩
  · exact hg _ (mem 0 (by decide)) (by simp [rangeSpans])
  · exact hg _ (mem 1 (by decide)) (by simp [rangeSpans])
  · exact hg _ (mem 2 (by decide)) (by simp [rangeSpans])
  · exact hg _ (mem 3 (by decide)) (by simp [rangeSpans])
  · have := hg _ (mem 4 (by decide)) (by simp [rangeSpans])
    refine Eq.trans this ?_
    rcases a with _ | _ | _ <;> rfl
  · have := hg _ (mem 5 (by decide)) (by simp [rangeSpans])
    refine Eq.trans this ?_
    rcases a with _ | _ | _ <;> rcases b with _ | _ | _ <;> rfl
  · have := hg _ (mem 6 (by decide)) (by simp [rangeSpans])
    refine Eq.trans this ?_
    rcases a with _ | _ | _ <;> rfl
  · have := hg _ (mem 7 (by decide)) (by simp [rangeSpans])
    refine Eq.trans this ?_
    rcases a with _ | _ | _ <;> rfl
  · exact hg _ (mem 8 (by decide)) (by simp [rangeSpans])
  · have := hg _ (mem 9 (by decide)) (by simp [rangeSpans])
    refine Eq.trans this ?_
    rcases a with _ | _ | _ <;> rcases b with _ | _ | _ <;> rfl

theorem guard_colon {w : Text} (h : 58 ∈ w) : (Ast.toGuard.fullMatch w).isSome = false := by
  cases hm : Ast.toGuard.fullMatch w with
  | none => rfl
  | some mt =>
    obtain ⟨-, -, -, s', hr, hrest, -, -⟩ := Re.fullMatch_some hm
    obtain ⟨w', hc, ha⟩ := hr.allB (p := fun c => c != 58) (by decide +kernel)
    have e := hc.rest
    simp only [startSt, List.drop_zero, hrest, List.append_nil] at e
    rw [e] at h
    simpa using ha 58 h

/-- The start of a range result, before the end is looked at. -/
def rangeBase (ref : PTime) (x : DateTime) (idx : Nat) (t : Text) (h mi : Nat) : PResult :=
  ((((PResult.mk' ref idx t).onStart (fun c => (c.set .hour h).set .min mi)).onStart
    (fun c => ((c.imply .mday x.day).imply .month x.month).imply .year x.year))).setTag .timeExpression

theorem range_reduce {rt : Rt} {g : Globals} {ref : PTime} {x : DateTime} (hx : RefReads ref x) {h mi k mj : Nat} {a b : Option Bool}
    {mt : Match} {tx : Text} {idx : Nat} (hpos : mt.start = 0)
    (g0 : mt.str 0 = rangeText h mi a k mj b) (g1 : mt.str 1 = []) (g2 : mt.str 2 = two h) (g3 : mt.str 3 = two mi)
    (g4 : mt.str 4 = []) (g6 : mt.str 6 = (ampmText a).drop 1)
    (g7 : mt.str 7 = txt!"to " ++ two k ++ txt!":" ++ two mj ++ ampmText b) (g10 : mt.str 10 = two k) (g11 : mt.str 11 = two mj)
    (g12 : mt.str 12 = []) (g14 : mt.str 14 = (ampmText b).drop 1)
    (hh : h ≤ 24) (hk : k ≤ 24) (ha : a ≠ none → h ≤ 12) (hb : b ≠ none → k ≤ 12) (hmi : mi < 60) (hmj : mj < 60) :
    timeExprExtract rt g tx mt ref idx =
      (toMeridiem rt mt (rangeBase ref x idx (rangeText h mi a k mj b) (hour24 h a) mi) (hour24 h a) k
          (a.map fun p => if p then 112 else 97)) >>= fun tr => setEnd mt ref tr.2 tr.1 mj (-1) := by
  obtain ⟨y1, y2, y3, -⟩ := Date.year_of_ymd hx.date
  have hhour : ∀ n, n < 100 → hourOf (two n) = .ok (n : Int) := fun n hn => hourOf_text (short := false) (h := n) (by simpa using hn)
  have hm : ∀ n m : Nat, m < 100 → minuteOf (n : Int) (two m) = .ok ((n : Int), (m : Int)) := by
    intro n m hm
    unfold minuteOf
    rw [if_pos (by simp [two]), stoi_two hm]; rfl
  have hsub : substr (mt.str 0) (mt.lengthOf 1) = .ok (rangeText h mi a k mj b) := by
    unfold Match.lengthOf substr; rw [g1, g0]; simp
  have hp : precededByWord mt tx = .ok false := by
    unfold precededByWord Match.position; rw [if_neg (by omega)]; rfl
  have hf : fromSecond mt = .ok (some (-1)) := by unfold fromSecond; rw [g4]; rfl
  have hcolon : (Ast.toGuard.fullMatch (mt.str 7)).isSome = false := by
    rw [g7]; exact guard_colon (by simp)
  have ht : toSecond mt = .ok (some (-1)) := by unfold toSecond; rw [g12]; rfl
  have hto : ∀ (r : PResult) (hour : Int) (ampm : Option Nat), timeExprTo rt mt ref r hour ampm =
      (toMeridiem rt mt r hour k ampm >>= fun tr => setEnd mt ref tr.2 tr.1 mj (-1)) := by
    intro r hour ampm
    unfold timeExprTo
    rw [Ast.compile_toGuard]
    simp only
    rw [hcolon]
    simp only [Out.pure_eq, Out.bind_ok, Bool.false_eq_true, if_false]
    rw [g10, hhour k (by omega)]
    simp only [Out.bind_ok]
    rw [g11, hm k mj (by omega)]
    simp only [Out.bind_ok]
    rw [if_neg (by omega), if_neg (by
      rintro ⟨h1, h2⟩
      rw [g14] at h1
      rcases b with _ | b
      · simp [ampmText] at h1
      · have := hb (by simp); omega)]
    rw [ht]
    rfl
  unfold timeExprExtract
  rw [hsub]
  simp only [Out.bind_ok]
  rw [hp]
  simp only [Out.bind_ok, Bool.false_eq_true, if_false]
  rw [hf]
  simp only [Out.bind_ok]
  rw [g4]
  simp only [List.isEmpty_nil, if_true]
  rw [g2, hhour h (by omega)]
  simp only [Out.bind_ok]
  rw [g3, hm h mi (by omega)]
  simp only [Out.bind_ok]
  rw [if_neg (by omega), if_neg (by omega), if_neg (by
      rintro ⟨h1, h2⟩
      rw [g6] at h1
      rcases a with _ | a
      · simp [ampmText] at h1
      · have := ha (by simp); omega)]
  have h7 : (mt.str 7).isEmpty = false := by rw [g7]; rfl
  rw [h7]
  simp only [Bool.false_eq_true, if_false]
  have fin : ∀ (hour : Nat) (ampm : Option Nat),
      (setStart ref (PResult.mk' ref idx (rangeText h mi a k mj b)) hour mi >>= fun r => timeExprTo rt mt ref r hour ampm) =
      (toMeridiem rt mt (rangeBase ref x idx (rangeText h mi a k mj b) hour mi) hour k ampm >>=
        fun tr => setEnd mt ref tr.2 tr.1 mj (-1)) := by
    intro hour ampm
    unfold setStart
    rw [y1, y2, y3]
    simp only [Out.bind_ok]
    exact hto _ _ _
  rcases a with _ | _ | _
  · have e : mt.str 6 = [] := g6
    rw [e]
    exact fin h none
  · have e : mt.str 6 = txt!"am" := g6
    rw [e]
    have h12 := ha (by simp)
    have e2 : meridiem 97 (h : Int) = ((h % 12 : Nat) : Int) := by
      unfold meridiem; rw [if_pos rfl]; split <;> omega
    have := fin (h % 12) (some 97)
    rw [← e2] at this
    refine Eq.trans this ?_
    rw [e2]; rfl
  · have e : mt.str 6 = txt!"pm" := g6
    rw [e]
    have h12 := ha (by simp)
    have e2 : meridiem 112 (h : Int) = ((h % 12 + 12 : Nat) : Int) := by
      unfold meridiem; rw [if_neg (by decide), if_pos rfl]; split <;> omega
    have := fin (h % 12 + 12) (some 112)
    rw [← e2] at this
    refine Eq.trans this ?_
    rw [e2]; rfl

/-- A range result before its end is stored. -/
structure RangeStart (x : DateTime) (idx : Nat) (t : Text) (h mi : Nat) (r : PResult) : Prop where
  index : r.index = PResult.toU32 idx
  text : r.text = t
  date : DateIs r.startDate x.date
  time : TimeIs r.startDate h mi 0
  endDate : r.endDate = Comps.empty

theorem rangeBase_start (ref : PTime) (x : DateTime) (idx : Nat) (t : Text) (h mi : Nat) :
    RangeStart x idx t h mi (rangeBase ref x idx t h mi) := by
  unfold rangeBase
  refine ⟨?_, ?_, ?_, ?_, ?_⟩
  · simp [PResult.mk']
  · simp
  · simp [DateIs, DateTime.date, get_imply]
  · simp [TimeIs, get_imply]
  · simp

theorem RangeStart.setHour {x : DateTime} {idx : Nat} {t : Text} {h mi : Nat} {r : PResult} (hr : RangeStart x idx t h mi r) (h' : Nat) :
    RangeStart x idx t h' mi (r.onStart (·.set .hour h')) := by
  obtain ⟨a1, a2, ⟨b1, b2, b3⟩, ⟨c1, c2, c3⟩, a5⟩ := hr
  exact ⟨a1, a2, by simp [DateIs, b1, b2, b3], by simp [TimeIs, c2, c3], a5⟩

theorem range_meridiem {rt : Rt} {c : Nat} {mt : Match} {x : DateTime} {idx : Nat} {t : Text} {h mi k : Nat} {r : PResult} {a b : Option Bool}
    (hd : ∀ n, rt.dangling n = .ok n) (hu : a = none → b = none → rt.uninit = .ok c)
    (hr : RangeStart x idx t (hour24 h a) mi r) (g6 : mt.str 6 = (ampmText a).drop 1)
    (g14 : mt.str 14 = (ampmText b).drop 1) (hk : b ≠ none → k ≤ 12) :
    ∃ r', toMeridiem rt mt r (hour24 h a) k (a.map fun p => if p then 112 else 97) = .ok ((endHour c k a b : Nat), r') ∧
      RangeStart x idx t (startHour h a b) mi r' := by
  unfold toMeridiem
  rcases b with _ | _ | _
  · have e : mt.str 14 = [] := g14
    rw [e]
    simp only [List.isEmpty_nil, Bool.not_true, Bool.false_eq_true, if_false]
    rcases a with _ | _ | _
    · simp only [Option.map_none]
      rw [hu rfl rfl]
      refine ⟨r, ?_, hr⟩
      simp only [Out.bind_ok, Out.pure_eq, Out.ok.injEq, Prod.mk.injEq, and_true, endHour]
      by_cases h1 : c = 97
      · subst h1
        by_cases h2 : k = 12
        · subst h2; simp
        · have : ¬ ((k : Int) = 12) := by omega
          simp [h2, this]
      · by_cases h3 : c = 112
        · subst h3
          by_cases h2 : k = 12
          · subst h2; simp
          · have : ¬ ((k : Int) = 12) := by omega
            simp [h2, this]
        · simp [h1, h3]
    · refine ⟨r, ?_, hr⟩
      simp only [Option.map_some, Out.bind_ok, Out.pure_eq, Out.ok.injEq, Prod.mk.injEq, and_true, endHour]
      by_cases h2 : k = 12
      · subst h2; simp
      · have : ¬ ((k : Int) = 12) := by omega
        simp [h2, this]
    · refine ⟨r, ?_, hr⟩
      simp only [Option.map_some, Out.bind_ok, Out.pure_eq, Out.ok.injEq, Prod.mk.injEq, and_true, endHour]
      by_cases h2 : k = 12
      · subst h2; simp
      · have : ¬ ((k : Int) = 12) := by omega
        simp [h2, this]
  · have e : mt.str 14 = txt!"am" := g14
    rw [e]
    simp only [hd]
    refine ⟨r, ?_, ?_⟩
    · have hk := hk (by simp)
      show (Out.ok _ : Out (Int × PResult)) = _
      simp only [endHour, hour24, firstChar, List.headD_cons, Out.ok.injEq, Prod.mk.injEq, and_true]
      by_cases h2 : k = 12
      · subst h2; simp
      · have : ¬ ((k : Int) = 12) := by omega
        simp only [if_true, this, if_false]
        rw [Nat.mod_eq_of_lt (by omega)]
    · rcases a with _ | _ | _ <;> exact hr
  · have e : mt.str 14 = txt!"pm" := g14
    rw [e]
    simp only [hd]
    have hk := hk (by simp)
    have hth : (if (k : Int) ≠ 12 then (k : Int) + 12 else (k : Int)) = ((endHour c k a (some true) : Nat) : Int) := by
      simp only [endHour, hour24]
      by_cases h2 : k = 12
      · subst h2; simp
      · have : (k : Int) ≠ 12 := by omega
        rw [if_pos this, Nat.mod_eq_of_lt (by omega)]; simp
    rcases a with _ | _ | _
    · have e6 : mt.str 6 = [] := g6
      rw [e6]
      simp only [List.isEmpty_cons, Bool.not_false, if_true, Out.bind_ok, firstChar, List.headD_cons,
        show ((112 : Nat) = 97) = False by simp, if_false, List.isEmpty_nil, true_and, hth]
      by_cases h2 : h = 12
      · subst h2
        rw [if_neg (by simp [hour24])]
        exact ⟨r, rfl, hr⟩
      · have : ((hour24 h none : Nat) : Int) ≠ 12 := by simp [hour24]; omega
        rw [if_pos this]
        refine ⟨_, rfl, ?_⟩
        have := hr.setHour (h + 12)
        simp only [startHour, h2, if_false]
        exact this
    all_goals
      have e6 : (mt.str 6).isEmpty = false := by rw [g6]; rfl
      simp only [e6, List.isEmpty_cons, Bool.not_false, if_true, Out.bind_ok, firstChar, List.headD_cons,
        show ((112 : Nat) = 97) = False by simp, if_false, Bool.false_eq_true, false_and, hth]
      exact ⟨r, rfl, hr⟩

/-- **C34 (the rule).** What `HH:MM[ am|pm] to HH:MM[ am|pm]` gives, for all hours up to 24 (up to 12 with am/pm) and all
minutes, on a machine on which a destroyed string is still intact and the uninitialised byte is `c`: one result,
covering the whole text, start and end on the reference date at the hours `startHour` and `endHour`. -/
theorem c34_range_rule_partial (rt : Rt) (hrt : rt.Benign) (c : Nat) (hd : ∀ n, rt.dangling n = .ok n) (g : Globals) (ref : PTime)
    (x : DateTime) (hx : RefReads ref x) (h mi k mj : Nat) (a b : Option Bool) (hu : a = none → b = none → rt.uninit = .ok c)
    (hh : h ≤ 24) (hk : k ≤ 24) (ha : a ≠ none → h ≤ 12) (hb : b ≠ none → k ≤ 12) (hmi : mi < 60) (hmj : mj < 60) :
    Yields (execute rt timeExprParser g (rangeText h mi a k mj b) ref) (rangeText h mi a k mj b) (fun r =>
      DateIs r.startDate x.date ∧ TimeIs r.startDate (startHour h a b) mi 0 ∧
      r.hasEnd = true ∧ DateIs r.endDate x.date ∧ TimeIs r.endDate (endHour c k a b) mj 0) := by
  obtain ⟨mt, hf, g0, g1, g2, g3, g4, g6, g7, g10, g11, g12, g14⟩ := range_found h mi a k mj b
  have e1 := range_reduce (rt := rt) (g := g) (tx := rangeText h mi a k mj b) (idx := 0) hx hf.start g0 g1 g2 g3 g4 g6 g7 g10 g11 g12 g14
    hh hk ha hb hmi hmj
  obtain ⟨r', e2, hr'⟩ := range_meridiem hd hu (rangeBase_start ref x 0 (rangeText h mi a k mj b) (hour24 h a) mi) g6 g14 hb
  rw [e2, Out.bind_ok] at e1
  obtain ⟨y1, y2, y3, -⟩ := Date.year_of_ymd hx.date
  unfold setEnd at e1
  rw [y1, y2, y3, g12] at e1
  simp only [Out.bind_ok, List.isEmpty_nil, if_true] at e1
  refine yields_of hrt timeExpr_pattern timeExpr_min (toLower_range h mi a k mj b) hf (pureExtract_ok e1) ?_ ?_ ?_ ?_
  · refine hasPossibleDates_of_year ?_
    have := hx.valid.1.1
    have e := hr'.date.1
    simp only [DateTime.date] at e
    show r'.startDate.get .year ≠ 0
    rw [e]; omega
  · exact hr'.index
  · exact hr'.text
  · refine ⟨hr'.date, hr'.time, rfl, ?_, ?_⟩
    · rw [copy_endDate rfl]
      simp [PResult.onEnd, PResult.makeEndValid, hr'.endDate, DateIs, DateTime.date, get_imply]
    · rw [copy_endDate rfl]
      simp [PResult.onEnd, PResult.makeEndValid, hr'.endDate, TimeIs, get_imply]

/-- **C34 (am/pm on both sides).** Then start and end are exactly the two times on the 24-hour clock. -/
theorem c34_both_given_partial (rt : Rt) (hrt : rt.Benign) (hd : ∀ n, rt.dangling n = .ok n) (g : Globals) (ref : PTime)
    (x : DateTime) (hx : RefReads ref x) (h mi k mj : Nat) (a b : Bool) (hh : h ≤ 12) (hk : k ≤ 12) (hmi : mi < 60) (hmj : mj < 60) :
    Yields (execute rt timeExprParser g (rangeText h mi (some a) k mj (some b)) ref) (rangeText h mi (some a) k mj (some b)) (fun r =>
      DateIs r.startDate x.date ∧ TimeIs r.startDate (hour24 h (some a)) mi 0 ∧ hour24 h (some a) < 24 ∧
      r.hasEnd = true ∧ DateIs r.endDate x.date ∧ TimeIs r.endDate (hour24 k (some b)) mj 0 ∧ hour24 k (some b) < 24) := by
  have hlt : ∀ h (a : Bool), hour24 h (some a) < 24 := by intro h a; cases a <;> simp [hour24] <;> omega
  refine yields_mono ?_ (c34_range_rule_partial rt hrt 0 hd g ref x hx h mi k mj (some a) (some b) (by simp) (by omega) (by omega)
    (fun _ => hh) (fun _ => hk) hmi hmj)
  rintro r ⟨h1, h2, h3, h4, h5⟩
  exact ⟨h1, h2, hlt _ _, h3, h4, h5, hlt _ _⟩

/-- **C34 (as claimed) is false**: after 12:59 every `HH:MM to HH:MM pm` starts past midnight, at hour `HH + 12`. -/
theorem c34_start_past_midnight_refuted (rt : Rt) (hrt : rt.Benign) (hd : ∀ n, rt.dangling n = .ok n) (g : Globals) (ref : PTime)
    (x : DateTime) (hx : RefReads ref x) (h mi k mj : Nat) (h13 : 13 ≤ h) (hh : h ≤ 24) (hk : k ≤ 12) (hmi : mi < 60) (hmj : mj < 60) :
    Yields (execute rt timeExprParser g (rangeText h mi none k mj (some true)) ref) (rangeText h mi none k mj (some true)) (fun r =>
      r.startDate.get .hour = h + 12 ∧ 24 < r.startDate.get .hour) := by
  refine yields_mono ?_ (c34_range_rule_partial rt hrt 0 hd g ref x hx h mi k mj none (some true) (by simp) hh (by omega)
    (by simp) (fun _ => hk) hmi hmj)
  rintro r ⟨-, ⟨h1, -, -⟩, -⟩
  rw [h1]
  have : startHour h none (some true) = h + 12 := by
    unfold startHour; rw [if_neg (by omega)]
  rw [this]
  constructor <;> push_cast <;> omega

/-- **C35 (as claimed) is false** (i): if neither side of a range has am or pm, the uninitialised `ampm_s` is read: on
a machine that reports that as undefined behaviour, every such range is undefined behaviour. -/
theorem c35_uninitialised_read_refuted (rt : Rt) (hu : rt.uninit = .ub) (g : Globals) (ref : PTime)
    (x : DateTime) (hx : RefReads ref x) (h mi k mj : Nat) (hh : h ≤ 24) (hk : k ≤ 24) (hmi : mi < 60) (hmj : mj < 60) :
    execute rt timeExprParser g (rangeText h mi none k mj none) ref = .ub := by
  obtain ⟨mt, hf, g0, g1, g2, g3, g4, g6, g7, g10, g11, g12, g14⟩ := range_found h mi none k mj none
  have e1 := range_reduce (rt := rt) (g := g) (tx := rangeText h mi none k mj none) (idx := 0) hx hf.start g0 g1 g2 g3 g4 g6 g7 g10 g11 g12 g14
    hh hk (by simp) (by simp) hmi hmj
  have e2 : timeExprExtract rt g (rangeText h mi none k mj none) mt ref 0 = .ub := by
    rw [e1]
    unfold toMeridiem
    have e : mt.str 14 = [] := g14
    rw [e]
    simp only [Option.map_none, hu]
    rfl
  unfold execute
  rw [timeExpr_pattern]
  simp only [toLower_range]
  unfold execLoop
  rw [hf.first]
  simp only
  have hidx : mt.position + (rangeText h mi none k mj none).length - (rangeText h mi none k mj none).length = 0 := by
    unfold Match.position; rw [hf.start]; omega
  rw [hidx]
  show (pureExtract timeExprExtract rt g (rangeText h mi none k mj none) mt ref 0 >>= _) = _
  unfold pureExtract
  rw [e2]
  rfl

/-- **C35 (as claimed) is false** (ii): if the end of a range has am or pm, a reference into a destroyed string is
read. -/
theorem c35_dangling_read_refuted (rt : Rt) (hu : ∀ n, rt.dangling n = .ub) (g : Globals) (ref : PTime)
    (x : DateTime) (hx : RefReads ref x) (h mi k mj : Nat) (a : Option Bool) (b : Bool) (hh : h ≤ 24) (ha : a ≠ none → h ≤ 12)
    (hk : k ≤ 12) (hmi : mi < 60) (hmj : mj < 60) :
    execute rt timeExprParser g (rangeText h mi a k mj (some b)) ref = .ub := by
  obtain ⟨mt, hf, g0, g1, g2, g3, g4, g6, g7, g10, g11, g12, g14⟩ := range_found h mi a k mj (some b)
  have e1 := range_reduce (rt := rt) (g := g) (tx := rangeText h mi a k mj (some b)) (idx := 0) hx hf.start g0 g1 g2 g3 g4 g6 g7 g10 g11 g12 g14
    hh (by omega) ha (fun _ => hk) hmi hmj
  have e2 : timeExprExtract rt g (rangeText h mi a k mj (some b)) mt ref 0 = .ub := by
    rw [e1]
    unfold toMeridiem
    have e : (!(mt.str 14).isEmpty) = true := by rw [g14]; cases b <;> rfl
    rw [if_pos e, hu]
    rfl
  unfold execute
  rw [timeExpr_pattern]
  simp only [toLower_range]
  unfold execLoop
  rw [hf.first]
  simp only
  have hidx : mt.position + (rangeText h mi a k mj (some b)).length - (rangeText h mi a k mj (some b)).length = 0 := by
    unfold Match.position; rw [hf.start]; omega
  rw [hidx]
  show (pureExtract timeExprExtract rt g (rangeText h mi a k mj (some b)) mt ref 0 >>= _) = _
  unfold pureExtract
  rw [e2]
  rfl

/-- **C33 (as claimed) is false**: `HH:MM:SS` with a minute field of 60..99 yields a result with nothing but the
seconds; printing it throws. -/
theorem c33_seconds_only_refuted (rt : Rt) (hrt : rt.Benign) (g : Globals) (ref : PTime)
    (h mi s : Nat) (hh : h < 100) (hmi : 60 ≤ mi) (hmi' : mi < 100) (hs : 1 ≤ s) (hs' : s < 60) :
    Yields (execute rt timeExprParser g (clockText false h (.seconds mi s) []) ref) (clockText false h (.seconds mi s) [])
      (fun r => SecondsOnly r ∧ r.startDate.get .sec = s ∧ ∃ e, r.toDate = .exn e) := by
  obtain ⟨mt, hf, g0, g1, g2, g3, g4, g6, g7⟩ := clock_found (short := false) (h := h) (t := .seconds mi s) (s := ([], none)) (by decide)
  have g3 : mt.str 3 = two mi := g3
  have g4 : mt.str 4 = two s := g4
  have hsub : substr (mt.str 0) (mt.lengthOf 1) = .ok (clockText false h (.seconds mi s) []) := by
    unfold Match.lengthOf substr; rw [g1, g0]; simp
  have hp : precededByWord mt (clockText false h (.seconds mi s) []) = .ok false := by
    unfold precededByWord Match.position; rw [hf.start, if_neg (by omega)]; rfl
  have hfs : fromSecond mt = .ok (some (s : Int)) := by
    unfold fromSecond
    rw [g4, if_neg (by simp [two]), stoi_two (by omega)]
    simp only [Out.bind_ok]
    rw [toU16_small (by omega), if_neg (by omega)]; rfl
  have e : timeExprExtract rt g (clockText false h (.seconds mi s) []) mt ref 0 =
      .ok ((PResult.mk' ref 0 (clockText false h (.seconds mi s) [])).onStart (·.set .sec s)) := by
    unfold timeExprExtract
    rw [hsub]
    simp only [Out.bind_ok]
    rw [hp]
    simp only [Out.bind_ok, Bool.false_eq_true, if_false]
    rw [hfs]
    simp only [Out.bind_ok]
    rw [g4, if_neg (by simp [two]), g2, hourOf_text (by simpa using hh)]
    simp only [Out.bind_ok]
    have : minuteOf (h : Int) (mt.str 3) = .ok ((h : Int), (mi : Int)) := by
      unfold minuteOf; rw [g3, if_pos (by simp [two]), stoi_two hmi']; rfl
    rw [this]
    simp only [Out.bind_ok]
    rw [if_pos (by omega)]
    rfl
  refine yields_of hrt timeExpr_pattern timeExpr_min (toLower_clock (s := ([], none)) (by decide)) hf (pureExtract_ok e) ?_ ?_ ?_ ?_
  · simp [PResult.hasPossibleDates]; omega
  · simp
  · simp
  · refine ⟨⟨fun _ => rfl, by simp [DateIs], ⟨s, hs', by simp [TimeIs]⟩, rfl⟩, by simp, .badYear, ?_⟩
    unfold PResult.toDate Comps.date ptimeFromTm
    rfl

example : clockText false 12 (.seconds 75 30) [] = txt!"12:75:30" := by decide
example : rangeText 20 0 none 9 0 (some true) = txt!"20:00 to 09:00 pm" := by decide

end Chrono.Props
