import Verif.Props.P13_Iso
import Verif.Props.P15_Tags
/-!
# C33-C35: clock times
-/
namespace Chrono.Props
open Chrono Chrono.Spec Chrono.Boost

/-! ## Groups of a match in a text without capitals -/

theorem slice_mem {t : Text} {a b : Nat} {c : Nat} (h : c ∈ slice t a b) : c ∈ t := by
  unfold slice at h
  exact List.mem_of_mem_drop (List.mem_of_mem_take h)

theorem toLower_of_mem {t : Text} (h : ∀ c ∈ t, lowerB c = c) : toLower t = t := by
  unfold toLower
  conv => rhs; rw [← List.map_id t]
  exact List.map_congr_left h

theorem lowerB_of_toLower {t : Text} (h : toLower t = t) : ∀ c ∈ t, lowerB c = c := by
  intro c hc
  obtain ⟨i, hi, rfl⟩ := List.getElem_of_mem hc
  have : (toLower t)[i]'(by simpa [toLower] using hi) = t[i] := by simp only [h]
  simpa [toLower] using this

theorem group_infix {r : Re} {t : Text} {mt : Match} (h : MatchOk r t mt) (n : Nat) (hn : n ≠ 0) : mt.str n <:+: t := by
  rcases h.group n hn with h' | ⟨a, b, -, -, -, -, h', -⟩
  · rw [h'.2]; exact List.nil_infix
  · rw [h']; unfold slice
    exact (List.take_prefix _ _).isInfix.trans (List.drop_suffix _ _).isInfix

theorem group_lower {r : Re} {t : Text} {mt : Match} (h : MatchOk r t mt) (hl : toLower t = t) (n : Nat) (hn : n ≠ 0) :
    toLower (mt.str n) = mt.str n :=
  toLower_of_mem fun c hc => lowerB_of_toLower hl c ((group_infix h n hn).subset hc)

theorem toLower_drop {t : Text} (h : toLower t = t) (k : Nat) : toLower (t.drop k) = t.drop k :=
  toLower_of_mem fun c hc => lowerB_of_toLower h c (List.mem_of_mem_drop hc)

/-! ## The groups -/

theorem lang_alt {a b : Re} {w : Text} (h : Lang (.alt a b) w) : Lang a w ∨ Lang b w := by
  obtain ⟨s, s', hr, hc⟩ := h
  rcases rel_alt.1 hr with h | h
  · exact .inl ⟨s, s', h, hc⟩
  · exact .inr ⟨s, s', h, hc⟩

theorem hourOf_number {w : Text} {v : Nat} (hv : v < 10000) (h : stoi w = .ok (v : Int)) :
    ∃ h : Nat, h < 10000 ∧ hourOf w = .ok (h : Int) := by
  unfold hourOf
  by_cases h1 : w = txt!"noon"
  · exact ⟨12, by decide, by rw [if_pos h1]; rfl⟩
  · rw [if_neg h1]
    by_cases h2 : w = txt!"midnight"
    · exact ⟨0, by decide, by rw [if_pos h2]; rfl⟩
    · rw [if_neg h2]; exact ⟨v, hv, h⟩

/-- Separators of a range: `-`, `–`, `~`, `〜`, `to`, `?` (in UTF-8). -/
def rangeSeparators : List Text :=
  [txt!"-", [226, 128, 147], txt!"~", [227, 128, 156], txt!"to", txt!"?"]

theorem clock_groups {t : Text} {mt : Match} (hs : Ast.timeExpr.search t = some mt) (hl : toLower t = t) :
    (∃ h : Nat, h < 10000 ∧ hourOf (mt.str 2) = .ok (h : Int)) ∧
    (∀ n ∈ [3, 4, 11, 12], mt.str n = [] ∨ mt.str n ≠ [] ∧ ∃ v : Nat, v < 100 ∧ stoi (mt.str n) = .ok (v : Int)) ∧
    (mt.str 7 = [] ∨ mt.str 7 ≠ [] ∧ (∃ h : Nat, h < 10000 ∧ hourOf (mt.str 10) = .ok (h : Int)) ∧
      mt.str 9 ∈ rangeSeparators) ∧ mt.lengthOf 1 ≤ (mt.str 0).length ∧ mt.start ≤ t.length := by
  have ok := Re.search_ok hs
  have one : ∀ n k, n ≠ 0 → k ≤ 9 → (Ast.timeExpr.bodies n).all (fun b => b.allB isDigitB && decide (1 ≤ b.minLen) && (b.maxLen == some k)) = true →
      (∃ body ∈ Ast.timeExpr.bodies n, Lang body (mt.str n)) → ∃ v : Nat, v < 10 ^ k ∧ stoi (mt.str n) = .ok (v : Int) ∧ mt.str n ≠ [] := by
    intro n k hn hk hb ⟨body, hm, hl⟩
    have := List.all_eq_true.1 hb body hm
    simp only [Bool.and_eq_true, decide_eq_true_eq, beq_iff_eq] at this
    exact lang_number hl this.1.1 this.1.2 k this.2 hk
  have opt : ∀ n, n ≠ 0 → (Ast.timeExpr.bodies n).all (fun b => b.allB isDigitB && decide (1 ≤ b.minLen) && (b.maxLen == some 2)) = true →
      mt.str n = [] ∨ mt.str n ≠ [] ∧ ∃ v : Nat, v < 100 ∧ stoi (mt.str n) = .ok (v : Int) := by
    intro n hn hb
    rcases ok.group_lang n hn with h5 | h5
    · exact .inl h5
    · obtain ⟨v, h1, h2, h3⟩ := one n 2 hn (by decide) hb h5
      exact .inr ⟨h3, v, by simpa using h1, h2⟩
  refine ⟨?_, ?_, ?_, ?_, ?_⟩
  · obtain ⟨body, hm, hlang⟩ := ok.must_lang 2 (by decide) (by decide +kernel)
    have hb : ∃ a b c, Ast.timeExpr.bodies 2 = [.alt (.alt a b) c] ∧ a.allB isDigitB = true ∧ 1 ≤ a.minLen ∧ a.maxLen = some 4 ∧
        b.words = some [txt!"noon"] ∧ c.words = some [txt!"midnight"] :=
      ⟨_, _, _, rfl, by decide +kernel, by decide +kernel, by decide +kernel, by decide +kernel, by decide +kernel⟩
    obtain ⟨a, b, c, hb, h1, h2, h3, h4, h5⟩ := hb
    rw [hb, List.mem_singleton] at hm
    subst hm
    have hw := group_lower ok hl 2 (by decide)
    rcases lang_alt hlang with hx | hx
    · rcases lang_alt hx with hx | hx
      · obtain ⟨v, hv, hst, -⟩ := lang_number hx h1 h2 4 h3 (by decide)
        exact hourOf_number (by simpa using hv) hst
      · have := hx.words _ h4
        rw [hw, List.mem_singleton] at this
        rw [this]; exact ⟨12, by decide, by decide⟩
    · have := hx.words _ h5
      rw [hw, List.mem_singleton] at this
      rw [this]; exact ⟨0, by decide, by decide⟩
  · intro n hn
    simp only [List.mem_cons, List.not_mem_nil, or_false] at hn
    rcases hn with rfl | rfl | rfl | rfl <;> exact opt _ (by decide) (by decide +kernel)
  · by_cases h7 : mt.str 7 = []
    · exact .inl h7
    · refine .inr ⟨h7, ?_, ?_⟩
      · obtain ⟨v, h1, h2, -⟩ := one 10 4 (by decide) (by decide) (by decide +kernel)
          (ok.imp_lang 7 10 (by decide) (by decide) (by decide +kernel) h7)
        exact hourOf_number (by simpa using h1) h2
      · obtain ⟨body, hm, hlang⟩ := ok.imp_lang 7 9 (by decide) (by decide) (by decide +kernel) h7
        have hb : (Ast.timeExpr.bodies 9).all (fun b => b.words == some rangeSeparators) = true := by decide +kernel
        have := List.all_eq_true.1 hb body hm
        simp only [beq_iff_eq] at this
        have := hlang.words _ this
        rw [group_lower ok hl 9 (by decide)] at this
        exact this
  · unfold Match.lengthOf
    rw [← ok.len]
    rcases ok.group 1 (by decide) with h' | ⟨a, b, h', h2, h3, h4, h5, -⟩
    · rw [h'.2]; simp
    · rw [h5]
      unfold slice Match.length
      rw [List.length_take]
      omega
  · exact Nat.le_trans ok.le ok.stop_le

/-! ## What the extraction does, whatever the match -/

/-- How a failed run failed. -/
def failure {α : Type} : Out α → Option Fail
  | .ok _ => none
  | .exn e => some (.exn e)
  | .ub => some .ub
  | .unspec => some .unspec
  | .diverge => some .diverge

/-- The failure is what the machine makes of reading an uninitialised variable or a destroyed string. -/
def BadRead (rt : Rt) (f : Fail) : Prop := failure rt.uninit = some f ∨ ∃ n, failure (rt.dangling n) = some f

theorem sat_uninit {rt : Rt} : Sat (fun _ => True) (BadRead rt) rt.uninit := by
  cases h : rt.uninit <;> first | trivial | exact .inl (by rw [h]; rfl)
theorem sat_dangling {rt : Rt} (n : Nat) : Sat (fun _ => True) (BadRead rt) (rt.dangling n) := by
  cases h : rt.dangling n <;> first | trivial | exact .inr ⟨n, by rw [h]; rfl⟩

/-- A time of day with hour at most `H`. -/
def ClockIs (H : Nat) (c : Comps) : Prop := ∃ h mi s : Nat, h ≤ H ∧ mi < 60 ∧ s < 60 ∧ TimeIs c h mi s

/-- The result of a clock time on the date `x`: tagged, dated `x`, hour at most `H`, and an end of the same kind. -/
structure ClockResult (H : Nat) (x : Nat × Nat × Nat) (r : PResult) : Prop where
  tag : r.tags .timeExpression ≠ none
  date : DateIs r.startDate x
  time : ClockIs H r.startDate
  endd : r.hasEnd = true → DateIs r.endDate x ∧ ClockIs 36 r.endDate

/-- The result of a time that was given up after its seconds had been read. -/
structure SecondsOnly (r : PResult) : Prop where
  tag : ∀ t, r.tags t = none
  date : DateIs r.startDate (0, 0, 0)
  time : ∃ s : Nat, s < 60 ∧ TimeIs r.startDate 0 0 s
  endd : r.hasEnd = false

theorem minuteOf_sat {h : Nat} {t : Text} (ht : t = [] ∨ t ≠ [] ∧ ∃ v : Nat, v < 100 ∧ stoi t = .ok (v : Int)) {F : Fail → Prop} :
    Sat (fun x : Int × Int => ∃ a b : Nat, x = (↑a, ↑b)) F (minuteOf h t) := by
  unfold minuteOf
  rcases ht with rfl | ⟨hne, v, -, hv⟩
  · simp only [List.isEmpty_nil, Bool.not_true, Bool.false_eq_true, if_false]
    split
    · exact ⟨h / 100, h % 100, by simp [Int.tmod_eq_emod_of_nonneg]⟩
    · exact ⟨h, 0, rfl⟩
  · have : (!t.isEmpty) = true := by simpa using hne
    rw [if_pos this, hv]
    exact ⟨h, v, rfl⟩

theorem sat_ok {α : Type} {P : α → Prop} {F : Fail → Prop} {x : Out α} {a : α} (h : x = .ok a) (hp : P a) : Sat P F x := by
  rw [h]; exact hp

theorem meridiem_le {c h : Nat} (hh : h ≤ 12) : ∃ k : Nat, meridiem c (h : Int) = k ∧ k ≤ 24 := by
  unfold meridiem
  split
  · split
    · exact ⟨0, rfl, by decide⟩
    · exact ⟨h, rfl, by omega⟩
  · split
    · split
      · exact ⟨h + 12, by simp, by omega⟩
      · exact ⟨h, rfl, by omega⟩
    · exact ⟨h, rfl, by omega⟩

section
variable {rt : Rt} {mt : Match} {ref : PTime} {x : DateTime}

/-- Before the hour is stored: at most the seconds are there. -/
def Fresh (r : PResult) : Prop :=
  (r.startDate = Comps.empty ∨ ∃ s : Nat, s < 60 ∧ r.startDate = Comps.empty.set .sec s) ∧ r.hasEnd = false ∧
  r.endDate = Comps.empty ∧ ∀ t, r.tags t = none

/-- After it: no end yet. -/
def Started (H : Nat) (x : Nat × Nat × Nat) (r : PResult) : Prop :=
  ClockResult H x r ∧ r.hasEnd = false ∧ r.endDate = Comps.empty

theorem setStart_sat (hx : RefReads ref x) {H : Nat} {r : PResult} (hr : Fresh r) (h mi : Nat) (hh : h ≤ H) (hm : mi < 60)
    {F : Fail → Prop} : Sat (Started H x.date) F (setStart ref r h mi) := by
  obtain ⟨y1, y2, y3, -⟩ := Date.year_of_ymd hx.date
  unfold setStart
  rw [y1, y2, y3]
  simp only [Out.bind_ok]
  obtain ⟨hs, he, h0, ht⟩ := hr
  refine ⟨⟨?_, ?_, ?_, ?_⟩, ?_, ?_⟩
  · unfold PResult.setTag
    split
    · rename_i h'; rw [h']; simp
    · simp
  · rcases hs with hs | ⟨s, -, hs⟩ <;> simp [DateIs, DateTime.date, get_imply, hs]
  · rcases hs with hs | ⟨s, hs1, hs⟩
    · exact ⟨h, mi, 0, hh, hm, by decide, by simp [TimeIs, get_imply, hs]⟩
    · exact ⟨h, mi, s, hh, hm, hs1, by simp [TimeIs, get_imply, hs]⟩
  · simp [he]
  · simp [he]
  · simp [h0]

theorem setEnd_sat (hx : RefReads ref x) {H : Nat} {r : PResult} (hr : Started H x.date r) (h mi : Nat) (hh : h ≤ 36)
    (hm : mi < 60) {s : Int} (hs : mt.str 12 = [] ∨ ∃ k : Nat, k < 60 ∧ s = k) {F : Fail → Prop} :
    Sat (ClockResult H x.date) F (setEnd mt ref r h mi s) := by
  obtain ⟨y1, y2, y3, -⟩ := Date.year_of_ymd hx.date
  obtain ⟨hc, he, h0⟩ := hr
  unfold setEnd
  rw [y1, y2, y3]
  simp only [Out.bind_ok]
  refine ⟨?_, ?_, ?_, fun _ => ⟨?_, ?_⟩⟩
  · split <;> exact hc.tag
  · split <;> exact hc.date
  · split <;> exact hc.time
  · split <;> simp [PResult.onEnd, PResult.makeEndValid, h0, DateIs, DateTime.date, get_imply]
  · rcases hs with hs | ⟨k, hk, rfl⟩
    · rw [hs]
      exact ⟨h, mi, 0, hh, hm, by decide, by simp [PResult.onEnd, PResult.makeEndValid, h0, TimeIs, get_imply]⟩
    · split
      · exact ⟨h, mi, 0, hh, hm, by decide, by simp [PResult.onEnd, PResult.makeEndValid, h0, TimeIs, get_imply]⟩
      · exact ⟨h, mi, k, hh, hm, hk, by simp [PResult.onEnd, PResult.makeEndValid, h0, TimeIs, get_imply]⟩

theorem started_setHour {H : Nat} {x : Nat × Nat × Nat} {r : PResult} (hr : Started H x r) (h : Nat) (hh : h ≤ 36) :
    Started 36 x (r.onStart (·.set .hour h)) := by
  obtain ⟨⟨a1, a2, ⟨h', mi, s, -, b2, b3, b4⟩, a4⟩, he, h0⟩ := hr
  refine ⟨⟨a1, ?_, ⟨h, mi, s, hh, b2, b3, ?_⟩, a4⟩, he, h0⟩
  · simpa [DateIs] using a2
  · obtain ⟨c1, c2, c3⟩ := b4
    simp [TimeIs, c2, c3]

theorem ClockIs.mono {H H' : Nat} {c : Comps} (h : ClockIs H c) (hH : H ≤ H') : ClockIs H' c := by
  obtain ⟨a, b, d, h1, h2⟩ := h
  exact ⟨a, b, d, Nat.le_trans h1 hH, h2⟩
theorem ClockResult.mono {H H' : Nat} {x : Nat × Nat × Nat} {r : PResult} (h : ClockResult H x r) (hH : H ≤ H') :
    ClockResult H' x r := ⟨h.tag, h.date, h.time.mono hH, h.endd⟩
theorem Started.mono {H H' : Nat} {x : Nat × Nat × Nat} {r : PResult} (h : Started H x r) (hH : H ≤ H') :
    Started H' x r := ⟨ClockResult.mono h.1 hH, h.2⟩

theorem clamp_a {c : Nat} {th : Nat} (h : th ≤ 24) : ∃ k : Nat, k ≤ 24 ∧
    (if c = 97 then (if (th : Int) = 12 then 0 else (th : Int)) else (th : Int)) = k := by
  split
  · split
    · exact ⟨0, by decide, rfl⟩
    · exact ⟨th, h, rfl⟩
  · exact ⟨th, h, rfl⟩

theorem clamp_p {c : Nat} {th : Nat} (h : th ≤ 24) : ∃ k : Nat, k ≤ 36 ∧
    (if c = 112 then (if (th : Int) ≠ 12 then (th : Int) + 12 else (th : Int)) else (th : Int)) = k := by
  split
  · split
    · exact ⟨th + 12, by omega, by simp⟩
    · exact ⟨th, by omega, rfl⟩
  · exact ⟨th, by omega, rfl⟩

theorem toMeridiem_sat {y : Nat × Nat × Nat} {r : PResult} (hr : Started 24 y r) {hour th : Nat} (hh : hour ≤ 24) (ht : th ≤ 24)
    (ampm : Option Nat) :
    Sat (fun p : Int × PResult => ∃ k : Nat, p.1 = k ∧ k ≤ 36 ∧ Started 36 y p.2) (BadRead rt) (toMeridiem rt mt r hour th ampm) := by
  unfold toMeridiem
  split
  · refine (sat_dangling _).bind fun c _ => (sat_dangling _).bind fun c' _ => ?_
    obtain ⟨k, hk, e⟩ := clamp_a (c := c) ht
    simp only [e]
    obtain ⟨k', hk', e'⟩ := clamp_p (c := 112) hk
    simp only [if_true] at e'
    split
    · simp only [e']
      split
      · exact ⟨k', rfl, hk', started_setHour hr (hour + 12) (by omega)⟩
      · exact ⟨k', rfl, hk', hr.mono (by decide)⟩
    · exact ⟨k, rfl, by omega, hr.mono (by decide)⟩
  · have key : ∀ c c' : Nat, ∃ k : Nat, (if c' = 112 then
        (if (if c = 97 then (if (th : Int) = 12 then 0 else (th : Int)) else (th : Int)) ≠ 12 then
          (if c = 97 then (if (th : Int) = 12 then 0 else (th : Int)) else (th : Int)) + 12
          else (if c = 97 then (if (th : Int) = 12 then 0 else (th : Int)) else (th : Int)))
        else (if c = 97 then (if (th : Int) = 12 then 0 else (th : Int)) else (th : Int))) = k ∧ k ≤ 36 := by
      intro c c'
      obtain ⟨k, hk, e⟩ := clamp_a (c := c) ht
      simp only [e]
      obtain ⟨k', hk', e'⟩ := clamp_p (c := c') hk
      exact ⟨k', e', hk'⟩
    cases ampm with
    | none =>
      refine sat_uninit.bind fun c _ => sat_uninit.bind fun c' _ => ?_
      obtain ⟨k, e, hk⟩ := key c c'
      exact ⟨k, e, hk, hr.mono (by decide)⟩
    | some c =>
      obtain ⟨k, e, hk⟩ := key c c
      exact ⟨k, e, hk, hr.mono (by decide)⟩

theorem toSecond_sat (h : mt.str 12 = [] ∨ mt.str 12 ≠ [] ∧ ∃ v : Nat, v < 100 ∧ stoi (mt.str 12) = .ok (v : Int)) {F : Fail → Prop} :
    Sat (fun o => ∀ s : Int, o = some s → mt.str 12 = [] ∨ ∃ k : Nat, k < 60 ∧ s = k) F (toSecond mt) := by
  unfold toSecond
  rcases h with h | ⟨hne, v, -, hv⟩
  · rw [h]; exact fun s _ => .inl rfl
  · rw [if_neg (by simpa using hne), hv]
    simp only [Out.bind_ok]
    split
    · exact fun s hs => by cases hs
    · intro s hs; cases hs; exact .inr ⟨v, by omega, rfl⟩

theorem timeExprTo_sat (hx : RefReads ref x) {r : PResult} (hr : Started 24 x.date r)
    (hg : ∀ n ∈ [3, 4, 11, 12], mt.str n = [] ∨ mt.str n ≠ [] ∧ ∃ v : Nat, v < 100 ∧ stoi (mt.str n) = .ok (v : Int))
    (h10 : ∃ h : Nat, h < 10000 ∧ hourOf (mt.str 10) = .ok (h : Int)) {hour : Nat} (hh : hour ≤ 24) (ampm : Option Nat) :
    Sat (ClockResult 36 x.date) (BadRead rt) (timeExprTo rt mt ref r hour ampm) := by
  unfold timeExprTo
  rw [Ast.compile_toGuard]
  simp only
  have h36 : ClockResult 36 x.date r := hr.1.mono (by decide)
  refine Sat.bind (Q := fun _ => True) trivial fun _ _ => Sat.ite (fun _ => h36) fun _ => ?_
  obtain ⟨th, -, he⟩ := h10
  rw [he]
  simp only [Out.bind_ok]
  refine (minuteOf_sat (hg 11 (by simp))).bind ?_
  rintro _ ⟨a, b, rfl⟩
  refine Sat.ite (fun _ => h36) fun hn => Sat.ite (fun _ => h36) fun _ => ?_
  simp only at hn ⊢
  refine (toMeridiem_sat hr hh (by omega) ampm).bind ?_
  rintro ⟨p, r'⟩ ⟨k, hk, hk36, hr'⟩
  simp only at hk hr'
  subst hk
  refine (toSecond_sat (hg 12 (by simp))).bind fun o ho => ?_
  cases o with
  | none => exact hr'.1
  | some s => exact setEnd_sat hx hr' k b hk36 (by omega) (ho s rfl)
end

theorem clock_sat {rt : Rt} {g : Globals} {t : Text} {mt : Match} {ref : PTime} {x : DateTime} {idx : Nat}
    (hx : RefReads ref x) (hs : Ast.timeExpr.search t = some mt) (hl : toLower t = t) :
    Sat (fun r => r.hasPossibleDates = true → SecondsOnly r ∨ ClockResult 36 x.date r ∧
        (mt.str 7 = [] → ClockResult 24 x.date r ∧ r.hasEnd = false))
      (fun f => BadRead rt f ∧ mt.str 7 ≠ []) (timeExprExtract rt g t mt ref idx) := by
  obtain ⟨⟨h, -, hh⟩, hg, h7, hlen, hst⟩ := clock_groups hs hl
  have hempty : ∀ {t' : Text}, (PResult.mk' ref idx t').hasPossibleDates = true → False := by
    intro t' h; simp [PResult.hasPossibleDates] at h
  unfold timeExprExtract
  rw [show substr (mt.str 0) (mt.lengthOf 1) = .ok ((mt.str 0).drop (mt.lengthOf 1)) by unfold substr; rw [if_pos hlen]]
  simp only [Out.bind_ok]
  have hp : Sat (fun _ => True) (fun f => BadRead rt f ∧ mt.str 7 ≠ []) (precededByWord mt t) := by
    unfold precededByWord
    split
    · have : substr t (mt.position - 1) = .ok (t.drop (mt.position - 1)) := by
        unfold substr Match.position; rw [if_pos (by omega)]
      rw [this]; trivial
    · trivial
  refine hp.bind fun _ _ => Sat.ite (fun _ h => (hempty h).elim) fun _ => ?_
  have hf : Sat (fun o => ∀ s : Int, o = some s → mt.str 4 = [] ∨ ∃ k : Nat, k < 60 ∧ s = k)
      (fun f => BadRead rt f ∧ mt.str 7 ≠ []) (fromSecond mt) := by
    unfold fromSecond
    rcases hg 4 (by simp) with h | ⟨hne, v, hv, hv'⟩
    · rw [h]; exact fun s _ => .inl rfl
    · rw [if_neg (by simpa using hne), hv']
      simp only [Out.bind_ok]
      rw [toU16_small (by omega)]
      split
      · exact fun s hs => by cases hs
      · intro s hs; cases hs; exact .inr ⟨v, by omega, rfl⟩
  refine hf.bind fun o ho => ?_
  cases o with
  | none => exact fun h => (hempty h).elim
  | some s =>
    simp only
    have ho := ho s rfl
    generalize hr0 : (if (mt.str 4).isEmpty = true then PResult.mk' ref idx ((mt.str 0).drop (mt.lengthOf 1))
      else (PResult.mk' ref idx ((mt.str 0).drop (mt.lengthOf 1))).onStart (·.set .sec s)) = r0
    have hfresh : Fresh r0 := by
      subst hr0
      split
      · exact ⟨.inl rfl, rfl, rfl, fun _ => rfl⟩
      · rcases ho with ho | ⟨k, hk, rfl⟩
        · rename_i h4; exact absurd (by simpa using ho) h4
        · exact ⟨.inr ⟨k, hk, rfl⟩, rfl, rfl, fun _ => rfl⟩
    have hsec : r0.hasPossibleDates = true → SecondsOnly r0 := by
      obtain ⟨h1 | ⟨s, h0, h1⟩, h2, h3, h4⟩ := hfresh
      · intro hp; simp [PResult.hasPossibleDates, h1, h2] at hp
      · intro _; exact ⟨h4, by simp [DateIs, h1], ⟨s, h0, by simp [TimeIs, h1]⟩, h2⟩
    rw [hh]
    simp only [Out.bind_ok]
    refine (minuteOf_sat (hg 3 (by simp))).bind ?_
    rintro _ ⟨a, b, rfl⟩
    refine Sat.ite (fun _ h => .inl (hsec h)) fun n1 => Sat.ite (fun _ h => .inl (hsec h)) fun n2 =>
      Sat.ite (fun _ h => .inl (hsec h)) fun n3 => ?_
    simp only at n1 n2 n3 ⊢
    have tail : ∀ (k : Nat) (ampm : Option Nat), k ≤ 24 →
        Sat (fun r => r.hasPossibleDates = true → SecondsOnly r ∨ ClockResult 36 x.date r ∧
          (mt.str 7 = [] → ClockResult 24 x.date r ∧ r.hasEnd = false)) (fun f => BadRead rt f ∧ mt.str 7 ≠ [])
          (setStart ref r0 (k : Int) (b : Int) >>= fun result =>
            if (mt.str 7).isEmpty = true then pure result else timeExprTo rt mt ref result (k : Int) ampm) := by
      intro k ampm hk
      refine (setStart_sat hx hfresh k b hk (by omega)).bind fun r1 hr1 => ?_
      refine Sat.ite (fun h7' _ => ?_) fun h7' => ?_
      · exact .inr ⟨hr1.1.mono (by decide), fun _ => ⟨hr1.1, hr1.2.1⟩⟩
      · rcases h7 with h7 | ⟨h7, h10, -⟩
        · rw [h7] at h7'; exact absurd rfl h7'
        · refine (timeExprTo_sat hx hr1 hg h10 hk _).mono ?_ fun f hf => ⟨hf, h7⟩
          intro r hr _
          exact .inr ⟨hr, fun h => absurd h h7⟩
    by_cases h6 : (mt.str 6).isEmpty = true
    · rw [if_pos h6]
      exact tail a none (by omega)
    · rw [if_neg h6]
      obtain ⟨k, e, hk⟩ := meridiem_le (c := firstChar (mt.str 6)) (h := a) (by simp [h6] at n3; omega)
      simp only [e]
      exact tail k _ hk

/-! ## Every text -/

/-- No way to write a range occurs in the text. -/
def NoSeparator (text : Text) : Prop := ∀ sep ∈ rangeSeparators, ¬ sep <:+: toLower text

theorem noSeparator_group {text : Text} (h : NoSeparator text) {k : Nat} {mt : Match}
    (hs : Ast.timeExpr.search ((toLower text).drop k) = some mt) : mt.str 7 = [] := by
  obtain ⟨-, -, h7, -⟩ := clock_groups hs (toLower_drop (toLower_toLower text) k)
  rcases h7 with h7 | ⟨-, -, h9⟩
  · exact h7
  · exact absurd ((group_infix (Re.search_ok hs) 9 (by decide)).trans (List.drop_suffix k _).isInfix) (h _ h9)

theorem scan_total {rt : Rt} {P : Parser} {r : Re} {text : Text} {ref : PTime} {k : Nat} {g : Globals}
    {o : Out (List PResult × Globals)} (h : Scan rt P r text ref k g o) {I : Globals → Prop} (hg : I g)
    (hx : ∀ k g mt, I g → r.search (text.drop k) = some mt →
      ∃ res g', P.extract rt g (text.drop k) mt ref (k + mt.start) = .ok (res, g') ∧ I g') : ∃ rs g', o = .ok (rs, g') ∧ I g' := by
  induction h with
  | done => exact ⟨_, _, rfl, hg⟩
  | @step k g mt res g' out hs hx' _ ih =>
    obtain ⟨res2, g2, he, hI⟩ := hx k g mt hg hs
    rw [hx'] at he
    simp only [Out.ok.injEq, Prod.mk.injEq] at he
    rw [← he.2] at hI
    obtain ⟨rs, g3, rfl, hI'⟩ := ih hI
    exact ⟨_, _, rfl, hI'⟩
  | @fail k g mt hs hx' =>
    obtain ⟨res2, g2, he, -⟩ := hx k g mt hg hs
    exact absurd he (hx' _)

theorem sat_total {α : Type} {P : α → Prop} {F : Fail → Prop} {x : Out α} (h : Sat P F x) (hF : ∀ f, ¬ F f) : ∃ a, x = .ok a ∧ P a := by
  cases x with
  | ok a => exact ⟨a, rfl, h⟩
  | _ => exact absurd h (hF _)

theorem clock_tag {rt : Rt} (hrt : rt.Benign) {g g' : Globals} {text : Text} {ref : PTime}
    {rs : List PResult} (h : execute rt timeExprParser g text ref = .ok (rs, g')) {x : DateTime} (hx : RefReads ref x) :
    ∀ r ∈ rs, (SecondsOnly r ∨ ClockResult 36 x.date r ∧ (NoSeparator text → ClockResult 24 x.date r ∧ r.hasEnd = false)) := by
  intro r hr
  obtain ⟨k, g1, g2, mt, res, -, hs, he, hd, rfl⟩ := (execute_scan hrt timeExpr_pattern timeExpr_min g text ref).mem rs g' h r hr
  have := (clock_sat (rt := rt) (g := g1) (idx := k + mt.start) hx hs (toLower_drop (toLower_toLower text) k)).of_ok (pure_inv he) hd
  have hcopy : ∀ H, ClockResult H x.date res → ClockResult H x.date res.copy := by
    rintro H ⟨a1, a2, a3, a4⟩
    exact ⟨a1, a2, a3, fun h' => by rw [copy_endDate (r := res) h']; exact a4 h'⟩
  rcases this with ⟨b1, b2, b3, b4⟩ | ⟨h1, h2⟩
  · exact .inl ⟨b1, b2, b3, b4⟩
  · exact .inr ⟨hcopy _ h1, fun hn => ⟨hcopy _ (h2 (noSeparator_group hn hs)).1, (h2 (noSeparator_group hn hs)).2⟩⟩

/-- A clock result as the accessors see it. -/
def IsClock (H : Nat) (x : DateTime) (r : PResult) : Prop :=
  r.getTag .timeExpression = true ∧ DateIs r.startDate x.date ∧ ClockIs H r.startDate ∧
  (r.hasEnd = true → DateIs r.endDate x.date ∧ ClockIs 36 r.endDate)

theorem ClockResult.isClock {H : Nat} {x : DateTime} {r : PResult} (h : ClockResult H x.date r) (ht : OnlyTag .timeExpression r) :
    IsClock H x r := by
  refine ⟨?_, h.date, h.time, h.endd⟩
  rcases ht .timeExpression with h' | h'
  · exact absurd h' h.tag
  · unfold PResult.getTag; rw [h'.2]; rfl

theorem clock_onlyTag {rt : Rt} (hrt : rt.Benign) (hst : rt.Stops) {g g' : Globals} {text : Text} {ref : PTime}
    {rs : List PResult} (h : execute rt timeExprParser g text ref = .ok (rs, g')) : ∀ r ∈ rs, OnlyTag .timeExpression r :=
  execute_all timeExpr_pattern timeExpr_min hrt (fun _ _ _ _ _ _ _ hx _ => ((keeps_timeExpr hst).of_ok (pure_inv hx)).2.2) h

/-- **C33 (what holds).** In a text in which no range separator (`-`, `–`, `~`, `〜`, `to`, `?`) occurs, every result
of the time-expression parser is a clock time: tagged, on the reference date, hour 0..24, minute and second below
60, no end; with one exception, a result with nothing but seconds and no date at all. The parser never fails on such
a text, whatever the machine makes of uninitialised and destroyed memory. -/
theorem c33_single_times_partial (rt : Rt) (hrt : rt.Benign) (hst : rt.Stops) (g : Globals) (text : Text) (hn : NoSeparator text)
    (ref : PTime) (x : DateTime) (hx : RefReads ref x) :
    ∃ rs, execute rt timeExprParser g text ref = .ok (rs, g) ∧
      ∀ r ∈ rs, (IsClock 24 x r ∧ r.hasEnd = false) ∨ SecondsOnly r := by
  have ht := scan_total (I := fun g' => g' = g) (execute_scan hrt timeExpr_pattern timeExpr_min g text ref) rfl (by
    rintro k g1 mt rfl hs
    obtain ⟨res, he, -⟩ := sat_total (clock_sat (rt := rt) (g := g1) (idx := k + mt.start) hx hs (toLower_drop (toLower_toLower text) k))
      (fun f hf => hf.2 (noSeparator_group hn hs))
    exact ⟨res, g1, pureExtract_ok he, rfl⟩)
  obtain ⟨rs, g', e, rfl⟩ := ht
  refine ⟨rs, e, fun r hr => ?_⟩
  rcases clock_tag hrt e hx r hr with h | ⟨-, h⟩
  · exact .inr h
  · exact .inl ⟨(h hn).1.isClock (clock_onlyTag hrt hst e r hr), (h hn).2⟩

/-- **C34 (what holds).** On every text, every result of the time-expression parser that is not one of those
exceptions is on the reference date (and so is its end, if any), with minutes and seconds below 60 and hours at
most 36. -/
theorem c34_range_hours_partial (rt : Rt) (hrt : rt.Benign) (hst : rt.Stops) (g g' : Globals) (text : Text)
    (ref : PTime) (x : DateTime) (hx : RefReads ref x) (rs : List PResult)
    (h : execute rt timeExprParser g text ref = .ok (rs, g')) : ∀ r ∈ rs, IsClock 36 x r ∨ SecondsOnly r := by
  intro r hr
  rcases clock_tag hrt h hx r hr with h' | ⟨h', -⟩
  · exact .inr h'
  · exact .inl (h'.isClock (clock_onlyTag hrt hst h r hr))

/-- **C35 (what holds).** Whatever goes wrong in the time-expression parser (on any text, for any reference time the
clock can show) is a read of an uninitialised variable or of a destroyed string, and that can only happen in a text
with a range separator; if the machine survives both, the parser returns normally. -/
theorem c35_only_bad_reads_partial (rt : Rt) (hrt : rt.Benign) (g : Globals) (text : Text) (ref : PTime) (x : DateTime)
    (hx : RefReads ref x) :
    (∃ rs, execute rt timeExprParser g text ref = .ok (rs, g)) ∨
    (¬ NoSeparator text ∧ ∃ f, failure (execute rt timeExprParser g text ref) = some f ∧ BadRead rt f) := by
  by_cases hok : ∃ y, execute rt timeExprParser g text ref = .ok y
  · obtain ⟨⟨rs, g'⟩, he⟩ := hok
    have := keepsGlobals_pure _ _ _ _ _ _ he
    subst this
    exact .inl ⟨rs, he⟩
  · right
    have hno : ∀ y, execute rt timeExprParser g text ref ≠ .ok y := fun y hy => hok ⟨y, hy⟩
    obtain ⟨k, g1, mt, hs, h1, h2⟩ := (execute_scan hrt timeExpr_pattern timeExpr_min g text ref).not_ok hno
    have hsat := clock_sat (rt := rt) (g := g1) (idx := k + mt.start) hx hs (toLower_drop (toLower_toLower text) k)
    have hcase : ∃ f, failure (timeExprExtract rt g1 ((toLower text).drop k) mt ref (k + mt.start)) = some f ∧
        BadRead rt f ∧ mt.str 7 ≠ [] := by
      cases he : timeExprExtract rt g1 ((toLower text).drop k) mt ref (k + mt.start) with
      | ok res => exact absurd (pureExtract_ok he) (h1 _)
      | _ => rw [he] at hsat; exact ⟨_, rfl, hsat⟩
    obtain ⟨f, hf, hb, h7⟩ := hcase
    refine ⟨fun hn => h7 (noSeparator_group hn hs), f, ?_, hb⟩
    rw [h2]
    have hp : timeExprParser.extract rt g1 ((toLower text).drop k) mt ref (k + mt.start) =
      timeExprExtract rt g1 ((toLower text).drop k) mt ref (k + mt.start) >>= fun r => .ok (r, g1) := rfl
    rw [hp]
    cases he : timeExprExtract rt g1 ((toLower text).drop k) mt ref (k + mt.start) <;> rw [he] at hf <;> first | exact hf | cases hf

end Chrono.Props
