import Verif.Lemmas.Sat
import Verif.Lemmas.Exec
/-!
# Every `extract` stops, and reports the position it was given and (a suffix of) the matched text
-/
namespace Chrono
open Boost

/-- The two places of undefined behaviour in the time parser do not hang. -/
def Rt.Stops (rt : Rt) : Prop := rt.uninit ≠ .diverge ∧ ∀ c, rt.dangling c ≠ .diverge

theorem keeps_of_ne {i : Nat} {t : Text} {G : Tag} {x : Out Nat} (h : x ≠ .diverge) : Keeps i t G x := by
  cases x with
  | ok a => exact .ok trivial
  | exn e => exact .exn
  | ub => exact .ub
  | unspec => exact .unspec
  | diverge => exact absurd rfl h

variable {rt : Rt} {g : Globals} {tx : Text} {mt : Match} {ref : PTime} {idx : Nat}

theorem inv_casualDay {i : Nat} {t : Text} {G : Tag} {r : PResult} (h : HasInv.inv i t G r) (text : Text) (ref : PTime) (b : Bool) :
    HasInv.inv i t G (casualDay r text ref b).1 := by
  have hf : ∀ f, HasInv.inv i t G (r.onStart f) := fun f => h
  unfold casualDay
  by_cases h1 : findsAtZero txt!"tonight" text = true
  · rw [if_pos h1]; exact hf _
  rw [if_neg h1]
  by_cases h2 : (findsAtZero txt!"tomorrow" text || findsAtZero txt!"tmr" text) = true
  · rw [if_pos h2]; exact h
  rw [if_neg h2]
  by_cases h3 : findsAtZero txt!"yesterday" text = true
  · rw [if_pos h3]; exact hf _
  rw [if_neg h3]
  by_cases h4 : b = true
  · rw [if_pos h4]; exact hf _
  rw [if_neg h4]
  by_cases h5 : text = txt!"now"
  · rw [if_pos h5]; exact hf _
  · rw [if_neg h5]; exact h

theorem keeps_casualDate : Keeps (PResult.toU32 idx) (mt.str 0) .casualDate (casualDateExtract rt g tx mt ref idx) := by
  have h0 := inv_mk (G := .casualDate) (anchor := ref) (idx := idx) (tx := mt.str 0)
  unfold casualDateExtract
  refine (keeps_searches _ _ _).bind fun b _ => ?_
  refine (keeps_year _).bind fun _ _ => (keeps_month _).bind fun _ _ => (keeps_day _).bind fun _ _ => ?_
  have h1 := inv_casualDay h0 (mt.str 0) ref b
  generalize casualDay (PResult.mk' ref idx (mt.str 0)) (mt.str 0) ref b = p at *
  keeps

theorem keeps_casualTime : Keeps (PResult.toU32 idx) (mt.str 0) .casualTime (casualTimeExtract rt g tx mt ref idx) := by
  have h0 := inv_mk (G := .casualTime) (anchor := ref) (idx := idx) (tx := mt.str 0)
  unfold casualTimeExtract
  keeps

theorem keeps_iso : Keeps (PResult.toU32 idx) (mt.str 0) .iso (isoExtract rt g tx mt ref idx) := by
  have h0 := inv_mk (G := .iso) (anchor := ref) (idx := idx) (tx := mt.str 0)
  unfold isoExtract isoOffset
  keeps

theorem keeps_deadline : Keeps (PResult.toU32 idx) (mt.str 0) .deadline (deadlineExtract rt g tx mt ref idx) := by
  have h0 := inv_mk (G := .deadline) (anchor := ref) (idx := idx) (tx := mt.str 0)
  unfold deadlineExtract
  simp only
  repeat' (first
    | exact keeps_deadlineNumber _ _
    | exact keeps_deadlineDate h0 _ _ _
    | exact keeps_deadlineTime _ _ _
    | exact keeps_implyDate h0 _
    | keeps_step)

theorem keeps_weekNumber {i : Nat} {t : Text} {G : Tag} : Keeps i t G (weekNumber g mt) := by unfold weekNumber; keeps
theorem keeps_weekShift {i : Nat} {t : Text} {G : Tag} (m : Text) (n : Int) : Keeps i t G (weekShift ref m n) := by
  unfold weekShift; keeps

theorem keeps_week {G : Tag} : Keeps (PResult.toU32 idx) (mt.str 0) G (weekExtract rt g tx mt ref idx) := by
  have h0 := inv_mk (G := G) (anchor := ref) (idx := idx) (tx := mt.str 0)
  unfold weekExtract
  simp only
  repeat' (first
    | exact keeps_implyDate h0 _
    | exact keeps_weekNumber
    | exact keeps_weekShift _ _
    | keeps_step)

theorem keeps_dayOfWeek : Keeps (PResult.toU32 idx) (mt.str 0) .dayOfTheWeek (dayOfWeekExtract rt g tx mt ref idx) := by
  have h0 := inv_mk (G := .dayOfTheWeek) (anchor := ref) (idx := idx) (tx := mt.str 0)
  unfold dayOfWeekExtract updateParsedComponent weekdayDate
  keeps

theorem keeps_setDay {i : Nat} {t : Text} {G : Tag} {r : PResult} (h : HasInv.inv i t G r) (d : Date) (k : Int) :
    Keeps i t G (setDay r d k) := by unfold setDay; keeps

theorem keeps_holiday : Keeps (PResult.toU32 idx) (mt.str 0) .usHolidays (holidayExtract rt g tx mt ref idx) := by
  have h0 := inv_mk (G := .usHolidays) (anchor := ref) (idx := idx) (tx := mt.str 0)
  unfold holidayExtract holidayDate
  simp only
  repeat' (first
    | exact keeps_setDay h0 _ _
    | keeps_step)

theorem keeps_stof {i : Nat} {t : Text} {G : Tag} (s : Text) : Keeps i t G (stof s) := by
  unfold stof; simp only; split
  · exact .exn
  · split
    · exact .ok trivial
    · exact .exn

theorem keeps_relativeNumber {i : Nat} {t : Text} {G : Tag} (g : Globals) (s : Text) : Keeps i t G (relativeNumber g s) := by
  unfold relativeNumber
  have := keeps_stof (i := i) (t := t) (G := G) s
  split
  · exact .ok trivial
  · split
    · exact .ok trivial
    · split
      · exact .ok trivial
      · split
        · exact .ok trivial
        · split
          · exact .ok trivial
          · split
            · exact .ok trivial
            · exact .exn
          · exact .ub
          · exact .unspec
          · rename_i h; rw [h] at this; simp [Keeps, Sat, Fail.Stops] at this

theorem keeps_relativeThis {i : Nat} {t : Text}  {r : PResult} (h : HasInv.inv i t .relative r) (ref : PTime) (u : Text) :
    Keeps i t .relative (relativeThis r ref u) := by
  unfold relativeThis; keeps

theorem keeps_relativeDate {i : Nat} {t : Text}  {r : PResult} (h : HasInv.inv i t .relative r) (ref : PTime) (m u : Text)
    (n : FNum) : Keeps i t .relative (relativeDate r ref m u n) := by
  unfold relativeDate
  have h' : HasInv.inv i t .relative (r.setTag .relative) := inv_setTag.2 h
  simp only
  repeat' (first
    | exact keeps_implyDate h' _
    | keeps_step)

theorem keeps_relativeTime {i : Nat} {t : Text} {G : Tag} (ref : PTime) (m u : Text) (n : FNum) :
    Keeps i t G (relativeTime ref m u n) := by
  unfold relativeTime; keeps

theorem keeps_relative : Keeps (PResult.toU32 idx) (mt.str 0) .relative (relativeExtract rt g tx mt ref idx) := by
  have h0 := inv_mk (G := .relative) (anchor := ref) (idx := idx) (tx := mt.str 0)
  unfold relativeExtract
  simp only
  repeat' (first
    | exact keeps_relativeNumber _ _
    | exact keeps_relativeThis h0 _ _
    | exact keeps_relativeDate h0 _ _ _ _
    | exact keeps_relativeTime _ _ _ _
    | exact keeps_implyDate h0 _
    | keeps_step)

theorem keeps_nearestYear {i : Nat} {t : Text} {G : Tag} (ref : PTime) (m d : Int) : Keeps i t G (nearestYear ref m d) := by
  unfold nearestYear; keeps

theorem keeps_stoiCaught {i : Nat} {t : Text} {G : Tag} (s : Text) : Keeps i t G (stoiCaught s) := by
  unfold stoiCaught
  have := keeps_stoi (i := i) (t := t) (G := G) s
  split
  · exact .ok trivial
  · split
    · exact .ok trivial
    · exact .exn
  · exact .ub
  · exact .unspec
  · rename_i h; rw [h] at this; simp [Keeps, Sat, Fail.Stops] at this

theorem keeps_middleEndianYear {i : Nat} {t : Text} {G : Tag} (mt : Match) : Keeps i t G (middleEndianYear mt) := by
  unfold middleEndianYear
  simp only
  repeat' (first
    | exact keeps_stoiCaught _
    | keeps_step)

theorem keeps_middleEndian : Keeps (PResult.toU32 idx) (mt.str 0) .middleEndian (middleEndianExtract rt g tx mt ref idx) := by
  have h0 := inv_mk (G := .middleEndian) (anchor := ref) (idx := idx) (tx := mt.str 0)
  unfold middleEndianExtract middleEndianDay middleEndianRange
  simp only
  repeat' (first
    | exact keeps_middleEndianYear _
    | exact keeps_nearestYear _ _ _
    | keeps_step)

theorem keeps_monthName : Keeps (PResult.toU32 idx) ((mt.str 0).drop (mt.lengthOf 1)) .monthName
    (monthNameExtract rt g tx mt ref idx) := by
  unfold monthNameExtract substr
  split
  · have h0 := inv_mk (G := .monthName) (anchor := ref) (idx := idx) (tx := (mt.str 0).drop (mt.lengthOf 1))
    simp only [Out.bind_ok]
    repeat' (first
    | exact keeps_stoiCaught _
    | exact keeps_nearestYear _ _ _
    | keeps_step)
  · exact .exn

theorem keeps_collectFragment {i : Nat} {t : Text} {G : Tag} (mt : Match) (f : Fragments) :
    Keeps i t G (collectFragment mt f) := by
  unfold collectFragment; keeps

theorem keeps_extractFragments {i : Nat} {t : Text} {G : Tag} : ∀ (n : Nat) (s : Text) (f : Fragments), s.length < n →
    Keeps i t G (extractFragments Ast.timeUnit n s f) := by
  intro n
  induction n with
  | zero => intro s f h; omega
  | succ n ih =>
    intro s f h
    unfold extractFragments
    split
    · exact .ok trivial
    · rename_i mt hmt
      obtain ⟨h1, h2⟩ := match_pos (by decide +kernel) hmt
      refine (keeps_collectFragment _ _).bind fun f' _ => ?_
      have hs : substr s mt.length = .ok (s.drop mt.length) := by
        unfold substr Match.length; rw [if_pos (by omega)]
      rw [hs]
      refine ih _ _ ?_
      rw [List.length_drop]; unfold Match.length; omega

theorem keeps_onFrag {i : Nat} {t : Text} {G : Tag} {α : Type} [HasInv i t G α] (f : Option FNum) (old : α) (h : FNum → Out α)
    (h0 : HasInv.inv i t G old) (hh : ∀ v, Keeps i t G (h v)) : Keeps i t G (onFrag f old h) := by
  unfold onFrag; split
  · exact .ok h0
  · exact hh _

theorem keeps_catchOOR {i : Nat} {t : Text} {G : Tag} {old : Date} {x : Out Date} (hx : Keeps i t G x) :
    Keeps i t G (catchOOR old x) := by
  unfold catchOOR; split
  · split
    · exact .ok trivial
    · exact .exn
  · exact hx

theorem keeps_setFromFragments {i : Nat} {t : Text} {G : Tag} {r : PResult} (h : HasInv.inv i t G r) (fr : Fragments) (d : Date)
    (p : PTime) : Keeps i t G (setFromFragments r fr d p) := by
  unfold setFromFragments; keeps

theorem keeps_timeAgo : Keeps (PResult.toU32 idx) (mt.str 0) .timeAgo (timeAgoExtract rt g tx mt ref idx) := by
  have h0 := inv_mk (G := .timeAgo) (anchor := ref) (idx := idx) (tx := mt.str 0)
  unfold timeAgoExtract
  rw [Ast.compile_timeUnit]
  simp only
  repeat' (first
    | exact keeps_extractFragments _ _ _ (by omega)
    | exact keeps_setFromFragments h0 _ _ _
    | (refine keeps_onFrag _ _ _ trivial fun _ => ?_)
    | (refine keeps_catchOOR ?_)
    | keeps_step)

theorem keeps_timeLater : Keeps (PResult.toU32 idx) ((mt.str 0).drop (mt.lengthOf 1)) .timeLater
    (timeLaterExtract rt g tx mt ref idx) := by
  unfold timeLaterExtract
  rw [Ast.compile_timeUnit]
  have hs : ∀ s n, Keeps (PResult.toU32 idx) ((mt.str 0).drop (mt.lengthOf 1)) .timeLater (substr s n) := keeps_substr
  unfold substr at *
  split
  · have h0 := inv_mk (G := .timeLater) (anchor := ref) (idx := idx) (tx := (mt.str 0).drop (mt.lengthOf 1))
    simp only [Out.bind_ok]
    repeat' (first
    | exact hs _ _
    | exact keeps_extractFragments _ _ _ (by omega)
    | exact keeps_setFromFragments h0 _ _ _
    | (refine keeps_onFrag _ _ _ trivial fun _ => ?_)
    | keeps_step)
  · exact .exn

theorem keeps_hourOf {i : Nat} {t : Text} {G : Tag} (s : Text) : Keeps i t G (hourOf s) := by
  unfold hourOf; keeps
theorem keeps_minuteOf {i : Nat} {t : Text} {G : Tag} (h : Int) (s : Text) : Keeps i t G (minuteOf h s) := by
  unfold minuteOf; keeps

theorem keeps_toMeridiem (hrt : rt.Stops) {i : Nat} {t : Text} {G : Tag} {r : PResult} (h : HasInv.inv i t G r) (a b : Int)
    (ampm : Option Nat) : Keeps i t G (toMeridiem rt mt r a b ampm) := by
  unfold toMeridiem
  simp only
  repeat' (first
    | exact keeps_of_ne (hrt.2 _)
    | exact keeps_of_ne hrt.1
    | keeps_step)

theorem keeps_toSecond {i : Nat} {t : Text} {G : Tag} : Keeps i t G (toSecond mt) := by unfold toSecond; keeps

theorem keeps_setEnd {i : Nat} {t : Text} {G : Tag} {r : PResult} (h : HasInv.inv i t G r) (a b s : Int) :
    Keeps i t G (setEnd mt ref r a b s) := by
  unfold setEnd; keeps

theorem keeps_timeExprTo (hrt : rt.Stops) {i : Nat} {t : Text} {G : Tag} {r : PResult} (h : HasInv.inv i t G r) (hour : Int)
    (ampm : Option Nat) : Keeps i t G (timeExprTo rt mt ref r hour ampm) := by
  unfold timeExprTo
  rw [Ast.compile_toGuard]
  simp only
  refine Keeps.bind (.pure trivial) fun _ _ => ?_
  refine Keeps.ite (fun _ => .pure h) fun _ => ?_
  refine (keeps_hourOf _).bind fun _ _ => (keeps_minuteOf _ _).bind fun _ _ => ?_
  refine Keeps.ite (fun _ => .pure h) fun _ => Keeps.ite (fun _ => .pure h) fun _ => ?_
  refine (keeps_toMeridiem hrt h _ _ _).bind fun tr htr => keeps_toSecond.bind fun s _ => ?_
  split
  · exact .pure htr.2
  · exact keeps_setEnd htr.2 _ _ _

theorem keeps_fromSecond {i : Nat} {t : Text} {G : Tag} : Keeps i t G (fromSecond mt) := by unfold fromSecond; keeps
theorem keeps_precededByWord {i : Nat} {t : Text} {G : Tag} : Keeps i t G (precededByWord mt tx) := by unfold precededByWord; keeps
theorem keeps_setStart {i : Nat} {t : Text}  {r : PResult} (h : HasInv.inv i t .timeExpression r) (a b : Int) :
    Keeps i t .timeExpression (setStart ref r a b) := by unfold setStart; keeps

theorem keeps_timeExpr (hrt : rt.Stops) : Keeps (PResult.toU32 idx) ((mt.str 0).drop (mt.lengthOf 1)) .timeExpression
    (timeExprExtract rt g tx mt ref idx) := by
  unfold timeExprExtract
  by_cases hl : mt.lengthOf 1 ≤ (mt.str 0).length
  · have hsub : substr (mt.str 0) (mt.lengthOf 1) = .ok ((mt.str 0).drop (mt.lengthOf 1)) := by
      unfold substr; rw [if_pos hl]
    rw [hsub]
    have h0 := inv_mk (G := .timeExpression) (anchor := ref) (idx := idx) (tx := (mt.str 0).drop (mt.lengthOf 1))
    simp only [Out.bind_ok]
    refine keeps_precededByWord.bind fun _ _ => Keeps.ite (fun _ => .pure h0) fun _ =>
      keeps_fromSecond.bind fun s _ => ?_
    split
    · exact .pure h0
    · rename_i s _
      have h1 : HasInv.inv (PResult.toU32 idx) ((mt.str 0).drop (mt.lengthOf 1)) .timeExpression
          (if (mt.str 4).isEmpty then PResult.mk' ref idx ((mt.str 0).drop (mt.lengthOf 1))
            else (PResult.mk' ref idx ((mt.str 0).drop (mt.lengthOf 1))).onStart (·.set .sec s)) := by
        split <;> exact h0
      refine (keeps_hourOf _).bind fun _ _ => (keeps_minuteOf _ _).bind fun _ _ => ?_
      refine Keeps.ite (fun _ => .pure h1) fun _ => Keeps.ite (fun _ => .pure h1) fun _ =>
        Keeps.ite (fun _ => .pure h1) fun _ => ?_
      refine (keeps_setStart h1 _ _).bind fun r hr => Keeps.ite (fun _ => .pure hr) fun _ => ?_
      exact keeps_timeExprTo hrt hr _ _
  · have hsub : substr (mt.str 0) (mt.lengthOf 1) = .exn .outOfRange := by
      unfold substr; rw [if_neg hl]
    rw [hsub]; exact .exn

end Chrono
