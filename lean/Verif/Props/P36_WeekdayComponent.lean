import Verif.Props.P35_DayRanges
/-!
# C66, C67: the end of a day range and the weekday of a full date, on every text
-/
namespace Chrono.Props
open Chrono Chrono.Spec Chrono.Boost

theorem middleEndian_bodies2 : (Ast.middleEndian.bodies 2).all (fun b => match b.words with
    | some ws => ws.all fun w => (List.range 7).any fun k => weekdayWord w k && weekdayOffset.get w == k
    | none => false) = true := by
  decide +kernel

/-- The weekday of a match. -/
theorem middleEndian_weekday {t : Text} {mt : Match} (h : Ast.middleEndian.search t = some mt) (hne : mt.str 2 ≠ []) :
    ∃ k, weekdayWord (toLower (mt.str 2)) k = true ∧ weekdayOffset.get (toLower (mt.str 2)) = k := by
  have ok := Re.search_ok h
  rcases ok.group_lang 2 (by decide) with h2 | ⟨body, hb, hl⟩
  · exact absurd h2 hne
  have := List.all_eq_true.1 middleEndian_bodies2 body hb
  split at this
  · rename_i ws hws
    have hw := List.all_eq_true.1 this _ (hl.words ws hws)
    obtain ⟨k, -, hk⟩ := List.any_eq_true.1 hw
    simp only [Bool.and_eq_true, beq_iff_eq] at hk
    exact ⟨k, hk⟩
  · cases this

/-- The second day of a match: in digits, or 0. -/
theorem middleEndian_day2 {t : Text} {mt : Match} (h : Ast.middleEndian.search t = some mt) :
    (mt.str 7 = []) ∨ ∃ d : Nat, stoi (mt.str 7) = .ok (d : Int) ∧ IsDigits (mt.str 7) ∧ (mt.str 7).length ≤ 2 ∧ d = decimalValue (mt.str 7) := by
  have ok := Re.search_ok h
  rcases ok.group_lang 7 (by decide) with h7 | ⟨body, hb, hl⟩
  · exact .inl h7
  have := List.all_eq_true.1 middleEndian_bodies7 body hb
  simp only [Bool.and_eq_true, beq_iff_eq] at this
  obtain ⟨d1, d2, d3, -, d4⟩ := year_digits hl this.1.1 (by omega) this.2 (by decide)
  exact .inr ⟨_, d4, d1, d2, rfl⟩

/-- What the end of a result of the middle-endian parser is, and what its weekday is. -/
structure EndAndWeekday (t : Text) (r : PResult) : Prop where
  time : TimeIs r.startDate 0 0 0
  range : r.hasEnd = true → r.endDate.get .year = r.startDate.get .year ∧ r.endDate.get .month = r.startDate.get .month ∧
    TimeIs r.endDate 23 59 0 ∧ (r.endDate.get .mday = 0 ∨
      ∃ ds, IsDigits ds ∧ ds.length ≤ 2 ∧ ds <:+: t ∧ r.endDate.get .mday = decimalValue ds)
  weekday : r.startDate.certain .wday = true →
    ∃ w k, w <:+: toLower t ∧ weekdayWord w k = true ∧ r.startDate.get .wday = (k : Nat)

theorem middleEndian_end {rt : Rt} {g : Globals} {t : Text} {mt : Match} {ref : PTime} {idx : Nat} {res : PResult}
    (hs : Ast.middleEndian.search t = some mt) (h : middleEndianExtract rt g t mt ref idx = .ok res) (hp : res.hasPossibleDates = true) :
    EndAndWeekday res.text res := by
  have ok := Re.search_ok hs
  unfold middleEndianExtract at h
  obtain ⟨d, hd, h⟩ := Out.bind_eq_ok.1 h
  have nodate : ∀ res : PResult, res = PResult.mk' ref idx (mt.str 0) → res.hasPossibleDates = true → False := by
    rintro _ rfl h; exact absurd (show false = true from h) (by decide)
  split at h
  · cases h; exact (nodate _ rfl hp).elim
  obtain ⟨yo, -, h⟩ := Out.bind_eq_ok.1 h
  cases yo with
  | none => cases h; exact (nodate _ rfl hp).elim
  | some yw =>
    simp only at h
    obtain ⟨y, -, h⟩ := Out.bind_eq_ok.1 h
    obtain ⟨r1, hr1, h⟩ := Out.bind_eq_ok.1 h
    cases h
    have hlowinf : toLower (mt.str 2) <:+: toLower (mt.str 0) := by
      obtain ⟨a, b, hab⟩ := group_infix0 ok 2
      exact ⟨toLower a, toLower b, by rw [← hab]; simp [toLower]⟩
    unfold middleEndianRange at hr1
    by_cases h6 : mt.str 6 = []
    · rw [if_pos (by simp [h6])] at hr1
      cases hr1
      by_cases h2 : mt.str 2 = []
      · rw [if_pos (by simp [h2])]
        exact ⟨⟨rfl, rfl, rfl⟩, fun h => absurd (show false = true from h) (by decide), fun h => absurd (show false = true from h) (by decide)⟩
      · rw [if_neg (by simpa using h2)]
        obtain ⟨k, hk1, hk2⟩ := middleEndian_weekday hs h2
        exact ⟨⟨rfl, rfl, rfl⟩, fun h => absurd (show false = true from h) (by decide),
          fun _ => ⟨_, k, hlowinf, hk1, by show ((weekdayOffset.get (toLower (mt.str 2)) : Nat) : Int) = k; rw [hk2]⟩⟩
    · rw [if_neg (by simpa using h6)] at hr1
      obtain ⟨ed, hed, hr1⟩ := Out.bind_eq_ok.1 hr1
      have hed' : ed = 0 ∨ ∃ ds, IsDigits ds ∧ ds.length ≤ 2 ∧ ds <:+: mt.str 0 ∧ ed = decimalValue ds := by
        rcases middleEndian_day2 hs with h7 | ⟨d2, e1, e2, e3, e4⟩
        · rw [h7] at hed
          cases hed
          exact .inl rfl
        · by_cases h7 : mt.str 7 = []
          · rw [h7] at hed
            cases hed
            exact .inl rfl
          · rw [if_neg (by simpa using h7), e1] at hed
            cases hed
            exact .inr ⟨_, e2, e3, group_infix0 ok 7, by rw [e4]⟩
      cases hr1
      by_cases h2 : mt.str 2 = []
      · rw [if_pos (by simp [h2])]
        exact ⟨⟨rfl, rfl, rfl⟩, fun _ => ⟨rfl, rfl, ⟨rfl, rfl, rfl⟩, hed'⟩, fun h => absurd (show false = true from h) (by decide)⟩
      · rw [if_neg (by simpa using h2)]
        obtain ⟨k, hk1, hk2⟩ := middleEndian_weekday hs h2
        exact ⟨⟨rfl, rfl, rfl⟩, fun _ => ⟨rfl, rfl, ⟨rfl, rfl, rfl⟩, hed'⟩,
          fun _ => ⟨_, k, hlowinf, hk1, by show ((weekdayOffset.get (toLower (mt.str 2)) : Nat) : Int) = k; rw [hk2]⟩⟩

theorem endAndWeekday_copy {t : Text} {r : PResult} (h : EndAndWeekday t r) : EndAndWeekday t r.copy := by
  obtain ⟨h1, h2, h3⟩ := h
  refine ⟨h1, fun he => ?_, h3⟩
  have he' : r.hasEnd = true := he
  have : r.copy.endDate = r.endDate := by unfold PResult.copy; simp [he']
  rw [this]
  exact h2 he'

theorem middleEndian_results {rt : Rt} (hrt : rt.Benign) {g g' : Globals} {text : Text} {ref : PTime} {rs : List PResult}
    (h : execute rt middleEndianParser g text ref = .ok (rs, g')) {r : PResult} (hr : r ∈ rs) : EndAndWeekday r.text r := by
  obtain ⟨k, g1, g2, mt, res, -, hs, he, hp, rfl⟩ :=
    (execute_scan hrt middleEndian_pattern (by decide +kernel) g text ref).mem rs g' h r hr
  exact endAndWeekday_copy (middleEndian_end hs (pure_inv he) hp)

/-- **C66 (every text).** Whatever the text, a result of the middle-endian parser starts at 00:00:00, and if it has an end,
then that is in the same month and year as the start, at 23:59:00, on a day that stands in the mention in digits, or on
day 0 (which is no day: see `c66_missing_day_refuted` for what printing it does). -/
theorem c66_every_range (rt : Rt) (hrt : rt.Benign) (g g' : Globals) (text : Text) (ref : PTime) (rs : List PResult)
    (h : execute rt middleEndianParser g text ref = .ok (rs, g')) (r : PResult) (hr : r ∈ rs) :
    TimeIs r.startDate 0 0 0 ∧
    (r.hasEnd = true → r.endDate.get .year = r.startDate.get .year ∧ r.endDate.get .month = r.startDate.get .month ∧
      TimeIs r.endDate 23 59 0 ∧ (r.endDate.get .mday = 0 ∨
        ∃ ds, IsDigits ds ∧ ds.length ≤ 2 ∧ ds <:+: r.text ∧ r.endDate.get .mday = decimalValue ds)) :=
  ⟨(middleEndian_results hrt h hr).time, (middleEndian_results hrt h hr).range⟩

/-- **C67 (every text).** Whatever the text, if the weekday of a result of the middle-endian parser is certain, then the
mention contains a name of that day of the week. -/
theorem c67_weekday_is_written (rt : Rt) (hrt : rt.Benign) (g g' : Globals) (text : Text) (ref : PTime) (rs : List PResult)
    (h : execute rt middleEndianParser g text ref = .ok (rs, g')) (r : PResult) (hr : r ∈ rs)
    (hc : r.startDate.certain .wday = true) :
    ∃ w k, w <:+: toLower r.text ∧ weekdayWord w k = true ∧ r.startDate.get .wday = (k : Nat) :=
  (middleEndian_results hrt h hr).weekday hc

/-! ## The phrases -/

/-- Weekday, separator, month, blank, day, ` at noon`. -/
def weekdayDate (wd sep w ds : Text) : Text := wd ++ sep ++ w ++ txt!" " ++ ds ++ txt!" at noon"

/-- What the parser reports of it. -/
def weekdayDatePart (wd sep w ds : Text) : Text := wd ++ sep ++ w ++ txt!" " ++ ds ++ txt!" "

/-- Between the weekday and the month. -/
def weekdaySeps : List Text := [txt!", ", txt!" "]

def weekdayDateOk (wd sep w : Text) (s : Bool) : Bool :=
  let i := wd.length + sep.length
  let j := i + w.length + 1
  let k := j + (hourText s 11).length
  checkSpans Ast.middleEndian (weekdayDate wd sep w (hourText s 11)) (k + 1)
    [(2, some (0, wd.length)), (3, some (i, i + w.length)), (5, some (j, k)), (6, none), (8, none), (10, none)]

def weekdayDateChunk (ws : List (Text × Nat)) : Bool :=
  ws.all fun q => weekdaySeps.all fun sep => monthNames.all fun w => [true, false].all fun s => weekdayDateOk q.1 sep w s

-- in parts, to keep the memory of the kernel small
theorem weekdayDate_checks1 : weekdayDateChunk (weekdayOffset.take 6) = true := by decide +kernel
theorem weekdayDate_checks2 : weekdayDateChunk ((weekdayOffset.drop 6).take 6) = true := by decide +kernel
theorem weekdayDate_checks3 : weekdayDateChunk (weekdayOffset.drop 12) = true := by decide +kernel

theorem weekdayDate_checks : weekdayDateChunk weekdayOffset = true := by
  have h : weekdayOffset = weekdayOffset.take 6 ++ ((weekdayOffset.drop 6).take 6 ++ weekdayOffset.drop 12) := by decide
  rw [h]
  unfold weekdayDateChunk
  simp only [List.all_append, Bool.and_eq_true]
  exact ⟨weekdayDate_checks1, weekdayDate_checks2, weekdayDate_checks3⟩

theorem dr_weekdayDate (wd sep w : Text) (s : Bool) (d : Nat) :
    List.Forall₂ DigitRel (weekdayDate wd sep w (hourText s d)) (weekdayDate wd sep w (hourText s 11)) :=
  dr_append (dr_append (dr_append (dr_append (dr_append (dr_same _) (dr_same _)) (dr_same _)) (dr_same _)) (dr_hour s d)) (dr_same _)

theorem weekdayWord_mem {w : Text} {k : Nat} (h : weekdayWord w k = true) : (w, k) ∈ weekdayOffset := by
  have hc : (List.range 7).all (fun k => let name := weekdayNames.getD k []
      [name, name.take 3, txt!"tues", txt!"thur", txt!"thurs"].all fun w => !weekdayWord w k || weekdayOffset.contains (w, k)) = true := by decide +kernel
  have h' := h
  unfold weekdayWord at h'
  simp only [Bool.and_eq_true, Bool.or_eq_true, beq_iff_eq, decide_eq_true_eq] at h'
  have := List.all_eq_true.1 (List.all_eq_true.1 hc k (List.mem_range.2 (by omega))) w (by
    simp only [List.mem_cons, List.not_mem_nil, or_false]
    tauto)
  simpa [h] using this

/-- A result of the middle-endian parser on weekday `k`, month `m`, day `d`. -/
theorem middleEndian_named {rt : Rt} {g : Globals} {tx : Text} {mt : Match} {ref : PTime} {m d k : Nat} {y : Int}
    (hm1 : 1 ≤ m) (hm2 : m ≤ 12) (hd1 : 1 ≤ d) (hd2 : d ≤ 31)
    (g3 : monthConstants.get (mt.str 3) = m) (hday : middleEndianDay mt = .ok (d : Int)) (g2 : mt.str 2 ≠ [])
    (g2' : weekdayOffset.get (toLower (mt.str 2)) = k)
    (g6 : mt.str 6 = []) (hy : middleEndianYear mt = .ok (some (-1))) (hyy : nearestYear ref m d = .ok y) :
    ∃ r, middleEndianExtract rt g tx mt ref 0 = .ok r ∧ r.index = 0 ∧ r.text = mt.str 0 ∧ r.hasEnd = false ∧
      (r.startDate.get .year = y ∧ r.startDate.get .month = m ∧ r.startDate.get .mday = d ∧ TimeIs r.startDate 0 0 0) ∧
      r.startDate.certain .wday = true ∧ r.startDate.get .wday = k := by
  unfold middleEndianExtract
  have e2 : (mt.str 2).isEmpty = false := by cases h : mt.str 2 with | nil => exact absurd h g2 | cons => rfl
  simp only [g3, hday, Out.bind_ok, e2, hy, g2']
  rw [if_neg (by omega)]
  unfold middleEndianRange
  rw [g6]
  have : (if (-1 : Int) ≠ -1 then pure (-1) else nearestYear ref (m : Int) (d : Int) : Out Int) = .ok y := by
    rw [if_neg (by simp)]; exact hyy
  rw [this]
  simp only [List.isEmpty_nil, if_true, Bool.false_eq_true, if_false, Out.bind_ok, Out.pure_eq]
  exact ⟨_, rfl, rfl, rfl, rfl, ⟨rfl, rfl, rfl, rfl, rfl, rfl⟩, rfl, rfl⟩

/-- **C67 (phrase).** For every name of a day of the week, the full name of a month and a day in one or two digits that exists in
that month of the reference year (`monday, march 5 at noon`, `thurs march 05 at noon`): the parser yields that month and day
in the nearest year, and the weekday that is written, certain - whether or not the date falls on that weekday. Missing: 29
and 28 February as in `c30_month_day_phrase_partial`. -/
theorem c67_weekday_phrase_partial (rt : Rt) (hrt : rt.Benign) (g : Globals) (ref : PTime) (x : DateTime) (hx : RefReads ref x)
    (h1 : 1401 ≤ x.year) (h2 : x.year ≤ 9998) (wd : Text) (k : Nat) (hwd : weekdayWord wd k = true) (sep : Text) (hsep : sep ∈ weekdaySeps)
    (w : Text) (m : Nat) (hm1 : 1 ≤ m) (hm2 : m ≤ 12) (hw : w = monthNames.getD (m - 1) [])
    (s : Bool) (d : Nat) (hs1 : s = true → d < 10)
    (hc : Civil x.year m d) (h29 : m = 2 → d ≤ 28) (h28 : ¬ (m = 2 ∧ d = 28 ∧ Leap (x.year + 1))) :
    Yields (execute rt middleEndianParser g (weekdayDate wd sep w (hourText s d)) ref) (weekdayDatePart wd sep w (hourText s d))
      (fun r => ∃ y, NearestYear x.date m d y ∧ DateIs r.startDate (y, m, d) ∧ TimeIs r.startDate 0 0 0 ∧ r.hasEnd = false ∧
        r.startDate.certain .wday = true ∧ r.startDate.get .wday = (k : Nat)) := by
  have hmw : monthWord w m = true := by
    unfold monthWord; rw [hw]; simp [hm1, hm2]
  have hnm : w ∈ monthNames := by
    rw [hw]
    have : (List.range 12).all (fun i => monthNames.contains (monthNames.getD i [])) = true := by decide
    have := List.all_eq_true.1 this (m - 1) (List.mem_range.2 (by omega))
    simpa using this
  have hm := monthWord_mem hmw (by rintro rfl; exact absurd hnm (by decide))
  have hq := weekdayWord_mem hwd
  have hck := List.all_eq_true.1 (List.all_eq_true.1 (List.all_eq_true.1 (List.all_eq_true.1 weekdayDate_checks _ hq) sep hsep) w hnm) s (by cases s <;> simp)
  obtain ⟨mt, hf, hst, h0, hg⟩ := foundSpans _ _ _ middleEndian_blind hck (dr_weekdayDate wd sep w s d)
  obtain ⟨gm, hl, -⟩ := monthConstants_get hm
  have hwt : weekdayOffset.all (fun q => weekdayOffset.get q.1 == q.2 && toLower q.1 == q.1 && !q.1.isEmpty) = true := by decide +kernel
  have hwt := List.all_eq_true.1 hwt _ hq
  simp only [Bool.and_eq_true, beq_iff_eq] at hwt
  have hb := monthLength_bounds x.year m hc.1 hc.2.1
  have hd31 : d ≤ 31 := by have := hc.2.2.2; omega
  have hlen : (hourText s 11).length = (hourText s d).length := by rw [hourText_length, hourText_length]
  rw [hlen] at hg hst h0
  have g0 : mt.str 0 = weekdayDatePart wd sep w (hourText s d) := by
    rw [h0]
    have : weekdayDate wd sep w (hourText s d) = weekdayDatePart wd sep w (hourText s d) ++ txt!"at noon" := by
      unfold weekdayDate weekdayDatePart
      simp
    rw [this, List.take_left']
    unfold weekdayDatePart
    simp only [List.length_append, List.length_singleton]
  have g6 : mt.str 6 = [] := hg (6, none) (by simp) (by decide)
  have g8 : mt.str 8 = [] := hg (8, none) (by simp) (by decide)
  have g10 : mt.str 10 = [] := hg (10, none) (by simp) (by decide)
  have g2 : mt.str 2 = wd := by
    rw [hg (2, some (0, wd.length)) (by simp) (by simp)]
    simp [spanText, slice, weekdayDate]
  have g3 : mt.str 3 = w := by
    rw [hg (3, some (wd.length + sep.length, wd.length + sep.length + w.length)) (by simp) (by simp)]
    have := slice_mid (wd ++ sep) w (txt!" " ++ hourText s d ++ txt!" at noon") (i := wd.length + sep.length) (j := wd.length + sep.length + w.length) (by simp) (by simp)
    unfold spanText weekdayDate
    simpa [List.append_assoc] using this
  have g5 : mt.str 5 = hourText s d := by
    rw [hg (5, some (wd.length + sep.length + w.length + 1, wd.length + sep.length + w.length + 1 + (hourText s d).length)) (by simp) (by simp)]
    have := slice_mid (wd ++ sep ++ w ++ txt!" ") (hourText s d) txt!" at noon" (i := wd.length + sep.length + w.length + 1)
      (j := wd.length + sep.length + w.length + 1 + (hourText s d).length)
      (by simp only [List.length_append, List.length_singleton]) (by simp only [List.length_append, List.length_singleton])
    unfold spanText weekdayDate
    simpa [List.append_assoc] using this
  have hd100 : d < if s then 10 else 100 := by
    cases s
    · show d < 100; omega
    · exact hs1 rfl
  have hday : middleEndianDay mt = .ok (d : Int) := by
    unfold middleEndianDay
    rw [g5, if_neg (by cases s <;> simp [hourText, two]), stoi_hourText hd100]
    show Out.ok (toU16 d) = _
    rw [show toU16 (d : Int) = d by unfold toU16; omega]
  have hyear : middleEndianYear mt = .ok (some (-1)) := by
    unfold middleEndianYear
    rw [g8, g10]
    rfl
  obtain ⟨y, hy⟩ := nearestYear_ok hx hc h1 h2
  obtain ⟨-, -, -, y', rfl, hyy, hn⟩ := nearestYear_sound hx hy
  have hlow : toLower (weekdayDate wd sep w (hourText s d)) = weekdayDate wd sep w (hourText s d) := by
    have e3 : weekdaySeps.all (fun k => toLower k == k) = true := by decide
    have e3 := List.all_eq_true.1 e3 sep hsep
    unfold weekdayDate
    simp only [toLower_append, hl, hwt.1.2, eq_of_beq e3, toLower_hourText]
    rfl
  obtain ⟨r, hr, e1, e2, e3, ⟨e4, e5, e6, e7⟩, e8, e9⟩ := middleEndian_named (rt := rt) (g := g) (tx := weekdayDate wd sep w (hourText s d)) (k := k) hc.1 hc.2.1 hc.2.2.1 hd31
    (by rw [g3]; exact gm) hday (by rw [g2]; rintro rfl; simp at hwt) (by rw [g2, hwt.1.2]; exact hwt.1.1) g6 hyear hy
  exact yields_of hrt middleEndian_pattern middleEndian_min hlow hf (pureExtract_ok hr)
    (hasPossibleDates_of_year (by rw [e4]; omega)) e1 (e2.trans g0) ⟨y', hn h29 h28, ⟨e4, e5, e6⟩, e7, e3, e8, e9⟩

example : weekdayDate txt!"thurs" txt!", " txt!"march" (hourText false 5) = txt!"thurs, march 05 at noon" ∧ weekdayWord txt!"thurs" 4 = true ∧
    monthNames.getD 2 [] = txt!"march" ∧ Civil 2019 3 5 := by decide

end Chrono.Props
