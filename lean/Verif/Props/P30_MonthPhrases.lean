import Verif.Props.P19_EndToEnd
import Verif.Props.P29_MonthNames
/-!
# C30, C31, C64: month phrases in every spelling
-/
namespace Chrono.Props
open Chrono Chrono.Spec Chrono.Boost

/-- Every spelling of a month but `may.` is in the table. -/
theorem monthWord_mem {w : Text} {m : Nat} (h : monthWord w m = true) (hmay : w ≠ txt!"may.") : (w, m) ∈ monthConstants := by
  have hc : (List.range 13).all (fun m => let name := monthNames.getD (m - 1) []
      [name, name.take 3, name.take 3 ++ txt!".", name.take 4, name.take 4 ++ txt!"."].all fun w =>
        !monthWord w m || w == txt!"may." || monthConstants.contains (w, m)) = true := by decide +kernel
  have h' := h
  unfold monthWord at h'
  simp only [Bool.and_eq_true, Bool.or_eq_true, beq_iff_eq, decide_eq_true_eq] at h'
  obtain ⟨⟨h1, h2⟩, h3⟩ := h'
  have := List.all_eq_true.1 (List.all_eq_true.1 hc m (List.mem_range.2 (by omega))) w (by
    simp only [List.mem_cons, List.not_mem_nil, or_false]
    rcases h3 with ((h3 | h3) | h3) | ⟨-, h3 | h3⟩ <;> simp only [h3, true_or, or_true])
  simpa [h, hmay] using this

/-- The words of the month-name parser: all spellings but `may.`, `jun` and `jun.`. -/
theorem monthWord_known {w : Text} {m : Nat} (h : monthWord w m = true) (hno : w ∉ [txt!"may.", txt!"jun", txt!"jun."]) :
    (w, m) ∈ monthConstants.filter (fun p => !(p.1 == txt!"jun" || p.1 == txt!"jun.")) := by
  simp only [List.mem_cons, List.not_mem_nil, or_false, not_or] at hno
  rw [List.mem_filter]
  refine ⟨monthWord_mem h hno.1, ?_⟩
  simp [hno.2.1, hno.2.2]

theorem monthConstants_get {w : Text} {m : Nat} (h : (w, m) ∈ monthConstants) : monthConstants.get w = m ∧ toLower w = w ∧ w.length < 10 := by
  have : monthConstants.all (fun p => monthConstants.get p.1 == p.2 && toLower p.1 == p.1 && decide (p.1.length < 10)) = true := by decide +kernel
  have := List.all_eq_true.1 this _ h
  simpa [and_assoc] using this

/-- The first of the month `m` in the nearest year, at midnight, year and day not certain. -/
def NearestMonth (x : DateTime) (m : Nat) (r : PResult) : Prop :=
  ∃ y, DateIs r.startDate (y, m, 1) ∧ NearestYear x.date m 1 y ∧ TimeIs r.startDate 0 0 0 ∧ r.hasEnd = false ∧
    r.startDate.certain .year = false ∧ r.startDate.certain .month = true ∧ r.startDate.certain .mday = false

/-- **C30 (month names).** Every spelling of every month - full name, three letters, with or without full stop, `sept` -
except `jun`, `jun.` and `may.` (see below) yields, as a whole text, the first of that month in the year that puts it
nearest to the reference date. -/
theorem c30_month_phrase (rt : Rt) (hrt : rt.Benign) (g : Globals) (ref : PTime) (x : DateTime) (hx : RefReads ref x)
    (h1 : 1401 ≤ x.year) (h2 : x.year ≤ 9998) (w : Text) (m : Nat) (hw : monthWord w m = true)
    (hno : w ∉ [txt!"may.", txt!"jun", txt!"jun."]) :
    Yields (execute rt monthNameParser g w ref) w (NearestMonth x m) := by
  have hm := monthWord_known hw hno
  have hc : (monthConstants.filter (fun p => !(p.1 == txt!"jun" || p.1 == txt!"jun."))).all (fun p =>
      checkAt0 Ast.monthName p.1 [(0, p.1), (1, []), (2, p.1), (3, [])]) = true := by decide +kernel
  obtain ⟨mt, hf, hg⟩ := foundAt0 _ (List.all_eq_true.1 hc _ hm)
  have g0 : mt.str 0 = w := hg (0, w) (by simp)
  have g1 : mt.str 1 = [] := hg (1, []) (by simp)
  have g2 : mt.str 2 = w := hg (2, w) (by simp)
  have g3 : mt.str 3 = [] := hg (3, []) (by simp)
  obtain ⟨gm, hl, -⟩ := monthConstants_get (List.mem_of_mem_filter hm)
  have hm12 : 1 ≤ m ∧ m ≤ 12 := by
    unfold monthWord at hw
    simp only [Bool.and_eq_true, decide_eq_true_eq] at hw
    exact hw.1
  have hb := monthLength_bounds x.year m hm12.1 hm12.2
  obtain ⟨y, hy⟩ := nearestYear_ok hx (m := m) (d := 1) ⟨hm12.1, hm12.2, by omega, by omega⟩ h1 h2
  obtain ⟨-, -, -, y', rfl, hyy, hn⟩ := nearestYear_sound hx hy
  refine yields_of hrt monthName_pattern monthName_min hl hf (pureExtract_ok (r := ((PResult.mk' ref 0 w).onStart
    (fun c => ((c.imply .mday 1).set .month m).imply .year y')).setTag .monthName) ?_) ?_ ?_ ?_ ?_
  · unfold monthNameExtract
    have : mt.lengthOf 1 = 0 := by unfold Match.lengthOf; rw [g1]; rfl
    rw [g0, g2, g3, gm, this]
    have hs : substr w 0 = .ok w := by unfold substr; simp
    rw [hs]
    simp only [Out.bind_ok, List.isEmpty_nil, if_true, Out.pure_eq, ne_eq, not_true_eq_false, if_false]
    have hy' : nearestYear ref (m : Int) 1 = .ok (y' : Int) := hy
    rw [hy']
    rfl
  · refine hasPossibleDates_of_year ?_
    show (y' : Int) ≠ 0
    omega
  · simp
  · simp
  · exact ⟨y', ⟨rfl, rfl, rfl⟩, hn (fun _ => by decide) (by omega), ⟨rfl, rfl, rfl⟩, rfl, rfl, rfl, rfl⟩

/-- The ways to write an era after the four digits that the month-name parser knows. -/
def eraTexts : List (Text × Era) :=
  [([], .unmarked), (txt!"be", .be), (txt!" be", .be), (txt!"ad", .ad), (txt!"bc", .bc)]

/-- A month, a blank, a year in four digits and an era. -/
def monthYear (w : Text) (n : Nat) (era : Text) : Text := w ++ txt!" " ++ four n ++ era

theorem slice_mid (a b c : Text) {i j : Nat} (hi : i = a.length) (hj : j = a.length + b.length) : slice (a ++ b ++ c) i j = b := by
  subst hi hj
  unfold slice
  rw [List.append_assoc, List.drop_left' rfl, List.take_left' (by omega)]

theorem monthName_blind : Ast.monthName.digitBlind = true := by decide +kernel

theorem monthYear_checks : (monthConstants.filter (fun p => !(p.1 == txt!"jun" || p.1 == txt!"jun."))).all (fun p => eraTexts.all fun e =>
    checkSpans Ast.monthName (monthYear p.1 1111 e.1) (p.1.length + 5 + e.1.length)
      [(1, some (0, 0)), (2, some (0, p.1.length)), (3, some (p.1.length + 1, p.1.length + 5)),
       (4, if e.1 = [] then none else some (p.1.length + 5, p.1.length + 5 + e.1.length))]) = true := by decide +kernel

theorem dr_monthYear (w : Text) (n : Nat) (era : Text) : List.Forall₂ DigitRel (monthYear w n era) (monthYear w 1111 era) :=
  dr_append (dr_append (dr_same _) dr_four) (dr_same _)

/-- **C31 (months with a year).** For every spelling of a month (but `jun`, `jun.`, `may.`), every number 0..9999 in four
digits and every era the parser knows, the text month, blank, year, era yields the first of that month in the year that
is meant - except if the year that is meant is -1, which the program takes for "no year given". -/
theorem c31_month_year_partial (rt : Rt) (hrt : rt.Benign) (g : Globals) (ref : PTime) (w : Text) (m : Nat)
    (hw : monthWord w m = true) (hno : w ∉ [txt!"may.", txt!"jun", txt!"jun."]) (n : Nat) (hn : n ≤ 9999) (e : Text × Era) (he : e ∈ eraTexts)
    (h1 : writtenYear n e.2 ≠ -1) :
    Yields (execute rt monthNameParser g (monthYear w n e.1) ref) (monthYear w n e.1) (fun r =>
      r.startDate.get .year = writtenYear n e.2 ∧ r.startDate.get .month = m ∧ r.startDate.get .mday = 1 ∧
      TimeIs r.startDate 0 0 0 ∧ r.hasEnd = false ∧
      r.startDate.certain .year = true ∧ r.startDate.certain .month = true ∧ r.startDate.certain .mday = false) := by
  have hm := monthWord_known hw hno
  have hc := List.all_eq_true.1 (List.all_eq_true.1 monthYear_checks _ hm) _ he
  obtain ⟨mt, hf, hst, h0, hg⟩ := foundSpans _ _ _ monthName_blind hc (dr_monthYear w n e.1)
  obtain ⟨gm, hl, -⟩ := monthConstants_get (List.mem_of_mem_filter hm)
  have hm12 : 1 ≤ m ∧ m ≤ 12 := by
    unfold monthWord at hw
    simp only [Bool.and_eq_true, decide_eq_true_eq] at hw
    exact hw.1
  have hlen4 : (four n).length = 4 := rfl
  have hlen : (monthYear w n e.1).length = w.length + 5 + e.1.length := by
    unfold monthYear
    simp only [List.length_append, hlen4]
    rfl
  have g0 : mt.str 0 = monthYear w n e.1 := by rw [h0]; simp only [← hlen]; exact List.take_length
  have g1 : mt.str 1 = [] := by
    rw [hg (1, some (0, 0)) (by simp) (by simp)]
    rfl
  have g2 : mt.str 2 = w := by
    rw [hg (2, some (0, w.length)) (by simp) (by simp)]
    simp [spanText, slice, monthYear]
  have g3 : mt.str 3 = four n := by
    rw [hg (3, some (w.length + 1, w.length + 5)) (by simp) (by simp)]
    show slice (w ++ txt!" " ++ four n ++ e.1) (w.length + 1) (w.length + 5) = four n
    exact slice_mid (w ++ txt!" ") (four n) e.1 (by simp) (by simp [hlen4])
  have g4 : mt.str 4 = e.1 := by
    rw [hg (4, if e.1 = [] then none else some (w.length + 5, w.length + 5 + e.1.length)) (by simp) (by simp)]
    by_cases h : e.1 = []
    · rw [if_pos h, h]; rfl
    · rw [if_neg h]
      show slice (monthYear w n e.1) (w.length + 5) (w.length + 5 + e.1.length) = e.1
      have := slice_mid (w ++ txt!" " ++ four n) e.1 [] (i := w.length + 5) (j := w.length + 5 + e.1.length) (by simp [hlen4]) (by simp [hlen4])
      rw [List.append_nil] at this
      exact this
  have her : eraYear n e.1 = writtenYear n e.2 := by
    refine eraYear_written ?_
    simp only [eraTexts, List.mem_cons, List.not_mem_nil, or_false] at he
    rcases he with rfl | rfl | rfl | rfl | rfl
    · exact ⟨[], rfl, fun _ => rfl⟩
    · exact ⟨[], rfl, fun _ => rfl⟩
    · exact ⟨txt!" ", rfl, fun h => absurd rfl h⟩
    · exact ⟨[], rfl, fun _ => rfl⟩
    · exact ⟨[], rfl, fun _ => rfl⟩
  have hle : toLower e.1 = e.1 := by
    have : eraTexts.all (fun e => toLower e.1 == e.1) = true := by decide
    simpa using List.all_eq_true.1 this e he
  refine yields_of hrt monthName_pattern monthName_min (by unfold monthYear; simp only [toLower_append, hl, hle, toLower_four]; rfl) hf
    (pureExtract_ok (r := ((PResult.mk' ref 0 (monthYear w n e.1)).onStart
      (fun c => ((c.imply .mday 1).set .month m).set .year (writtenYear n e.2))).setTag .monthName) ?_) ?_ ?_ ?_ ?_
  · unfold monthNameExtract
    have hl1 : mt.lengthOf 1 = 0 := by unfold Match.lengthOf; rw [g1]; rfl
    rw [g0, g2, g3, g4, gm, hl1]
    have hs : substr (monthYear w n e.1) 0 = .ok (monthYear w n e.1) := by unfold substr; simp
    have hst : stoiCaught (four n) = .ok (some (n : Int)) := by unfold stoiCaught; rw [stoi_four (by omega)]
    rw [hs, show (four n).isEmpty = false from rfl, hst]
    simp only [Out.bind_ok, Bool.false_eq_true, if_false, Out.pure_eq, her]
    rw [if_pos h1]
  · unfold PResult.hasPossibleDates
    simp
    omega
  · simp
  · simp
  · exact ⟨rfl, rfl, rfl, ⟨rfl, rfl, rfl⟩, rfl, rfl, rfl, rfl⟩

end Chrono.Props
