import Verif.Spec.Days
import Verif.Props.P45_DateAndTime
import Verif.Props.P60_CasualInText
import Verif.Props.P65_ClockInText
import Verif.Props.P69_Instances
/-!
# C91: a clock time and a day, in any text
-/
namespace Chrono.Props
open Chrono Chrono.Spec Chrono.Boost

theorem day_reads {w : Text} {ref tmp : PTime} {t' : DateTime} (hr : RefReads tmp t') {c : Comps} (h1 : dayRead w ref = (c, tmp)) (hc : NoTime c) :
    ∃ c', dayComps w ref = .ok c' ∧ DateIs c' t'.date ∧ NoTime c' ∧ c'.certain .month = true := by
  obtain ⟨e1, e2, e3, -⟩ := Date.year_of_ymd hr.date
  refine ⟨((c.set .year t'.year).set .month t'.month).set .mday t'.day, ?_, ?_, ?_, ?_⟩
  · unfold dayComps
    rw [h1]
    simp only []
    rw [e1, e2, e3]
    rfl
  · simp [DateIs, DateTime.date]
  · obtain ⟨n1, n2, n3⟩ := hc
    refine ⟨?_, ?_, ?_⟩
    · exact n1
    · exact n2
    · exact n3
  · rfl

theorem dayComps_ok {ref : PTime} {x : DateTime} (hx : RefReads ref x) {w : Text} {y m d : Nat} (hd : DayNamed x w (y, m, d)) (hc : CivilInRange y m d) :
    ∃ c, dayComps w ref = .ok c ∧ DateIs c (y, m, d) ∧ NoTime c ∧ c.certain .month = true := by
  have hh := hx.hours
  have hn : NoTime Comps.empty := by unfold NoTime; decide
  have hi : ∀ v, NoTime (Comps.empty.imply .hour v) := fun v => by
    unfold NoTime Comps.imply
    rw [if_neg (by decide)]
    exact hn
  have loose : ∀ {w : Text}, w ∈ [txt!"tomorrow", txt!"tmr"] → ∀ {tmp : PTime}, (if ref.hours > 0 then ref.addDays 1 else ref) = tmp → dayRead w ref = (Comps.empty, tmp) := by
    intro w hw tmp ht
    simp only [List.mem_cons, List.not_mem_nil, or_false] at hw
    rcases hw with rfl | rfl <;>
      · unfold dayRead
        casual_cases
        rw [ht]; rfl
  generalize hD : (y, m, d) = D at hd
  cases hd with
  | today => exact day_reads hx (c := Comps.empty) (by unfold dayRead; casual_cases; rfl) hn
  | tonight => exact day_reads hx (c := Comps.empty.imply .hour 22) (by unfold dayRead; casual_cases; rfl) (hi _)
  | tomorrow hw h =>
    have hr := hx.daysLater 1 (by
      rw [show daysLater 1 x.date = nextDay x.date from rfl, ← hD]; exact hc)
    exact day_reads hr (loose hw (by rw [if_pos (by rw [hh]; omega)]; rfl)) hn
  | firstHour hw h => exact day_reads hx (loose hw (by rw [if_neg (by rw [hh]; omega)])) hn
  | yesterday h =>
    subst hD
    have hr := hx.daysEarlier 1 (x := (y, m, d)) hc h
    exact day_reads hr (c := Comps.empty.imply .hour ref.hours) (by unfold dayRead; casual_cases; rfl) (hi _)

theorem zone_names : ∀ w ∈ [txt!"today", txt!"tonight", txt!"tomorrow", txt!"tmr", txt!"yesterday", txt!"morning", txt!"afternoon", txt!"evening", txt!"night"], ∀ z ∈ tzTable, ¬ toUpper w <:+: z.1 := by decide +kernel

theorem named_list {x : DateTime} {w : Text} {d : Nat × Nat × Nat} (h : DayNamed x w d) : w ∈ [txt!"today", txt!"tonight", txt!"tomorrow", txt!"tmr", txt!"yesterday"] := by
  cases h with
  | today => decide
  | tonight => decide
  | tomorrow hw => revert w; decide
  | firstHour hw => revert w; decide
  | yesterday => decide

theorem named_near {x : DateTime} {w : Text} {d : Nat × Nat × Nat} (h : DayNamed x w d) : w ∈ nearDays := by
  have key : ∀ w ∈ [txt!"today", txt!"tonight", txt!"tomorrow", txt!"tmr", txt!"yesterday"], w ∈ nearDays := by decide
  exact key w (named_list h)

theorem named_both {x : DateTime} {w : Text} {d : Nat × Nat × Nat} (h : DayNamed x w d) :
    w ∈ [txt!"today", txt!"tonight", txt!"tomorrow", txt!"tmr", txt!"yesterday", txt!"morning", txt!"afternoon", txt!"evening", txt!"night"] :=
  List.mem_append_left [txt!"morning", txt!"afternoon", txt!"evening", txt!"night"] (named_list h)

/-- The name of a day or of a part of the day is no time zone. -/
theorem not_only_zone {w a u q : Text} (h : w ∈ [txt!"today", txt!"tonight", txt!"tomorrow", txt!"tmr", txt!"yesterday", txt!"morning", txt!"afternoon", txt!"evening", txt!"night"])
    (hu : toLower u = w) : ¬ OnlyAZone (a ++ u ++ q) := by
  rintro ⟨abbr, off, ⟨bl, op, cl, e, h1, h2, h3, -, -, h4⟩, hz⟩
  have wall : ∀ c ∈ w, isWordB c = true := by clear hu; revert w; decide
  have hf := congrArg (List.filter isWordB) e
  have f1 : bl.filter isWordB = [] := List.filter_eq_nil_iff.2 fun c hc => by
    have := blank_notWord (h1 c hc)
    rwa [wordChar_iff] at this
  have f2 : op.filter isWordB = [] := by rcases h2 with rfl | rfl <;> rfl
  have f3 : cl.filter isWordB = [] := by rcases h3 with rfl | rfl <;> rfl
  have f4 : abbr.filter isWordB = abbr := List.filter_eq_self.2 fun c hc => wordChar_iff.1 (by
    have := h4 c hc
    unfold Letter at this
    unfold WordChar
    omega)
  have f5 : w.filter isWordB = w := List.filter_eq_self.2 wall
  rw [toLower_append, toLower_append, hu] at hf
  simp only [List.filter_append, f1, f2, f3, f4, f5, List.nil_append, List.append_nil] at hf
  have hi : w <:+: abbr := ⟨_, _, hf⟩
  obtain ⟨A, B, hAB⟩ := hi
  refine zone_names w h _ hz ⟨toUpper A, toUpper B, ?_⟩
  rw [← hAB]
  simp [toUpper]

/-- The name of a day in a text gives one mention, with the date and without a time. -/
theorem day_mention {rt : Rt} (hrt : Rt.Defined rt) {ref : PTime} {x : DateTime} (hx : RefReads ref x) {text P S w : Text} {ex : List Text} {y m d : Nat}
    (hd : DayNamed x w (y, m, d)) (hc : CivilInRange y m d) (hT : toLower text = P ++ w ++ S) (hps : StandsApart P S)
    (h : FewDateWords ex text) (hex : ∀ k ∈ nearDays, k ∈ ex → k = w) (hP : ¬ WholeWord w P) (hS : ¬ WholeWord w S) (hlen : text.length < 4294967296) :
    ∃ r, ParserReturns rt ref text casualDateParser [r] ∧ r.index = P.length ∧ (∃ b, Blanks b ∧ (b = [] ∨ w ∈ looseDays) ∧ S = b ++ (toLower text).drop (stop r) ∧ stop r = P.length + w.length + b.length) ∧
      DateIs r.startDate (y, m, d) ∧ NoTime r.startDate ∧ isTimeOnly r = false ∧ r.hasEnd = false ∧ ∀ t, r.getTag t = true → t = .casualDate := by
  have hw := named_near hd
  obtain ⟨c, hcm, c1, c2, c3⟩ := dayComps_ok hx hd hc
  obtain ⟨mt, b, hm, hu, hb, hbl, hSb, hn⟩ := casualDate_found hw hT hps h hex hP hS
  have hlow : toLower (w ++ b) = w ++ b := by rw [← hu]; exact lower_of_infix (str_infix hm 0)
  have hex := day_extract (rt := rt) (g := integerWords) (tx := toLower text) (ref := ref) (idx := mt.start) hw hb hbl hu hlow
  rw [hcm, Out.bind_ok] at hex
  have hok := Re.search_ok hm
  have l0 := hok.len
  have l1 := hok.le
  have l2 := hok.stop_le
  have hTl := congrArg List.length hT
  have hSl := congrArg List.length hSb
  have hul := congrArg List.length hu
  simp only [List.length_append, List.length_drop] at hTl hSl hul
  unfold Match.length at l0
  have hlt : (toLower text).length = text.length := by simp [toLower]
  have hst : mt.start = P.length := by omega
  have hidx : PResult.toU32 mt.start = mt.start := by unfold PResult.toU32; omega
  obtain ⟨r, hr⟩ : ∃ r, r = ({ PResult.mk' ref mt.start (w ++ b) with startDate := c } : PResult).setTag .casualDate := ⟨_, rfl⟩
  rw [← hr] at hex
  have r1 : r.index = mt.start := by rw [hr]; exact hidx
  have r2 : r.text = w ++ b := by rw [hr]; rfl
  have r3 : r.startDate = c := by rw [hr]; rfl
  have r4 : r.hasEnd = false := by rw [hr]; rfl
  have hs : stop r.copy = mt.stop := by
    unfold stop PResult.textLength
    rw [copy_index, copy_text, r1, r2, List.length_append]
    omega
  refine ⟨r.copy, ⟨_, execute_one hrt.stale casualDate_pattern casualDate_min hm (pureExtract_ok hex) ?_ hn⟩, ?_, ⟨b, hb, hbl, ?_, ?_⟩, ?_, ?_, ?_, ?_, ?_⟩
  · refine hasPossibleDates_of_year ?_
    rw [r3, c1.1]
    have := hc.1
    simp only []
    omega
  · rw [copy_index, r1, hst]
  · rw [hs]; exact hSb
  · rw [hs]; omega
  · show DateIs r.startDate _
    rw [r3]; exact c1
  · show NoTime r.startDate
    rw [r3]; exact c2
  · show (!r.startDate.certain .month && !r.startDate.certain .mday) = false
    rw [r3, c3]; rfl
  · exact r4
  · intro t ht
    have : r.getTag t = true := ht
    rw [hr] at this
    by_contra hne
    unfold PResult.getTag PResult.setTag at this
    simp [hne, PResult.mk'] at this

theorem near_notMonth : ∀ w ∈ nearDays, ∀ k ∈ monthForms, k ∉ [w] := by decide

/-- In a text with one time and words for days and parts of the day, no other parser finds anything. -/
theorem others_silent {p v s D sfx : Text} {ex : List Text} {t : Tail} {ap : Option Bool} (hv : toLower v = D ++ (t.text ++ sfx)) (hD : ∀ c ∈ D, isDigitB c = true)
    (hsf : HalfWritten sfx ap s) (hlead : ∀ c, p.getLast? = some c → Blank c) (hp : NoDigits p) (hd : NoDigits s)
    (hw : FewDateWords ex (p ++ v ++ s)) (hm : ¬ EndsWithMonth p) (hno : ∀ k ∈ otherKeys, k ∉ ex) (hmo : ∀ k ∈ monthForms, k ∉ ex) :
    (∀ k ∈ clockKeys, ¬ Occurs k.atStart k.word k.atEnd (toLower (p ++ v ++ s))) ∧
    ∀ P ∈ mainParsers, P = timeExprParser ∨ P = casualDateParser ∨ P = casualTimeParser ∨ silent P (toLower (p ++ v ++ s)) = true := by
  have hlow : toLower (p ++ v ++ s) = toLower p ++ (D ++ (t.text ++ (sfx ++ toLower s))) := by
    rw [toLower_append, toLower_append, hv]; simp
  have hlow' : toLower (p ++ v ++ s) = toLower p ++ ((D ++ t.text) ++ (sfx ++ toLower s)) := by rw [hlow]; simp
  have hP := lower_noDigits hp
  have hS := lower_noDigits hd
  have hclk : ∀ k ∈ clockKeys, ¬ Occurs k.atStart k.word k.atEnd (toLower (p ++ v ++ s)) := by
    intro k hk
    obtain ⟨w, hw', hk⟩ : ∃ w ∈ clockWords, k ∈ clockKeysOf w := by
      rcases List.mem_append.1 hk with hk | hk
      · exact ⟨_, by simp [clockWords], hk⟩
      · exact ⟨_, by simp [clockWords], hk⟩
    obtain ⟨c1, c2, c3⟩ := hw.clock w hw'
    simp only [clockKeysOf, List.mem_cons, List.not_mem_nil, or_false] at hk
    rcases hk with rfl | rfl | rfl
    · exact c1
    · exact not_infix c2
    · exact not_infix c3
  have hleadl : ∀ c, (toLower p).getLast? = some c → Blank c := by
    intro c hc
    unfold toLower at hc
    rw [List.getLast?_map] at hc
    obtain ⟨z, hz', rfl⟩ := Option.map_eq_some_iff.1 hc
    have := hlead z hz'
    unfold Blank at this
    unfold lowerB
    rw [if_neg (by omega)]
    exact this
  have hsfl : HalfWritten sfx ap (toLower s) := by
    rcases hsf with ⟨a, b, c⟩ | h
    · exact .inl ⟨a, b, by unfold SaysHalf at c ⊢; rwa [toLower_toLower]⟩
    · exact .inr h
  have hR := half_head hsfl hS
  have hHc : ∀ c ∈ D ++ t.text, isDigitB c = true ∨ c = 58 := by
    intro c hc
    rcases List.mem_append.1 hc with hc | hc
    · exact .inl (hD c hc)
    · exact tail_chars hc
  have quiet : ∀ {P : Parser} {r : Re}, P.pattern = some r → r.search (toLower (p ++ v ++ s)) = none → silent P (toLower (p ++ v ++ s)) = true := by
    intro P r hr hn
    unfold silent
    rw [hr]
    simp only [hn, Option.isNone_none]
  have hwd := no_wordy hw hno
  have e6 := Re.search_needs_glued monthName_glued (by decide +kernel) (text := p ++ v ++ s) (by
    intro k hk
    rcases List.mem_append.1 hk with hk | hk
    · exact not_whole (fun w hw' => hw.months w hw' (hmo w hw')) k hk
    · rw [List.mem_singleton] at hk; subst hk; exact no_backslash hw.backslash) (by
    intro a x' d' b h h1 h2
    rw [hlow'] at h
    by_contra hc
    have hc : isDigitB d' = true := by simpa using hc
    rcases before_digit hP hHc hR h hc with h3 | h3 | h3
    · have := blank_notWord (hleadl x' (by rw [← h3]; simp))
      exact this (wordChar_iff.2 h1)
    · rw [h2] at h3; cases h3
    · rw [h3] at h1; revert h1; decide)
  have e4 := middleEndian_clock hP hHc hR hlow' (toLower_toLower p) hw.dates (by
    rintro ⟨a, w, m, gap, k1, k2, k3⟩
    rw [toLower_toLower] at k3
    exact hm ⟨a, w, m, gap, k1, k2, k3⟩)
  have e9 := iso_clock hP hHc hR hlow' hleadl
  refine ⟨hclk, fun P hPm => ?_⟩
  simp only [mainParsers, List.mem_cons, List.not_mem_nil, or_false] at hPm
  rcases hPm with rfl | rfl | rfl | rfl | rfl | rfl | rfl | rfl | rfl | rfl | rfl | rfl
  · exact .inr (.inr (.inl rfl))
  · exact .inr (.inr (.inr (quiet deadline_pattern (hwd _ (by simp)))))
  · exact .inr (.inr (.inr (by unfold silent; rw [dayOfWeek_pattern])))
  · exact .inr (.inl rfl)
  · exact .inr (.inr (.inr (quiet middleEndian_pattern e4)))
  · exact .inr (.inr (.inr (quiet timeLater_pattern (hwd _ (by simp)))))
  · exact .inr (.inr (.inr (quiet monthName_pattern e6)))
  · exact .inr (.inr (.inr (quiet timeAgo_pattern (hwd _ (by simp)))))
  · exact .inl rfl
  · exact .inr (.inr (.inr (quiet iso_pattern e9)))
  · exact .inr (.inr (.inr (quiet holiday_pattern (hwd _ (by simp)))))
  · exact .inr (.inr (.inr (quiet week_pattern (hwd _ (by simp)))))

theorem time_and_day {rt : Rt} (hrt : Rt.Defined rt) {sort : List PResult → List PResult} (hs : Sorts sort) {ref : PTime} {x : DateTime} (hx : RefReads ref x)
    {p v s a u q w D sfx : Text} {t : Tail} {ap : Option Bool} {h mi y m d : Nat} {H : Int} (hv : toLower v = D ++ (t.text ++ sfx)) (hne : D ≠ []) (hD : ∀ c ∈ D, isDigitB c = true) (h4 : D.length ≤ 4)
    (hH : hourOf D = .ok H) (hM : minuteOf H (tailMinutes t) = .ok ((h : Int), (mi : Int)))
    (hh : h < 24) (h12 : sfx ≠ [] → h ≤ 12) (hmi : mi < 60) (hsec : t.second < 60) (hsf : HalfWritten sfx ap s)
    (hlead : ∀ c, p.getLast? = some c → Blank c) (hend : ∀ c, s.head? = some c → ¬ WordChar c) (hp : NoDigits p) (hd : NoDigits s)
    (hb : ∀ c ∈ s, c < 256) (hw : FewDateWords [w] (p ++ v ++ s)) (hm : ¬ EndsWithMonth p)
    (hlen : (p ++ v ++ s).length < 4294967296)
    (hsu : s = a ++ u ++ q) (hu : toLower u = w) (hday : DayNamed x w (y, m, d)) (hc : CivilInRange y m d) (hap : StandsApart a q)
    (h1 : ¬ WholeWord w (toLower (p ++ v ++ a))) (h2 : ¬ WholeWord w (toLower q)) (hj : ∀ k ∈ joinWords, ¬ k <:+: toLower q) :
    mainRun rt sort (p ++ v ++ s) ref = .ok (foundLine ++ (DateTime.mk y m d (hour24 h ap) mi t.second).format) := by
  have hwn := named_near hday
  obtain ⟨w0, wall, -⟩ := nearDays_word w hwn
  have ha : a ≠ [] := by
    rintro rfl
    cases hu' : u with
    | nil => rw [hu'] at hu; exact w0 hu.symm
    | cons c cs =>
      refine hend c (by rw [hsu, hu']; rfl) ?_
      rw [← wordChar_lower, wordChar_iff]
      exact wall _ (by rw [← hu, hu']; simp [toLower])
  have hz : ¬ OnlyAZone s := by rw [hsu]; exact not_only_zone (named_both hday) hu
  obtain ⟨hclk, hq⟩ := others_silent hv hD hsf hlead hp hd hw hm (near_notOther w hwn) (near_notMonth w hwn)
  obtain ⟨r, e, hret, r3, r4, r5, r6, r7, r8, r9, r10, r11, -, -, hzone⟩ := clock_mention hrt hx hv hne hD h4 hH hM hh h12 hmi hsec hsf hlead hend hp hd hb hclk hz hlen
  have hT : toLower (p ++ v ++ s) = toLower (p ++ v ++ a) ++ w ++ toLower q := by
    rw [hsu, ← hu]; simp [toLower_append]
  have hst : StandsApart (toLower (p ++ v ++ a)) (toLower q) := by
    have := standsApart_lower (p := p ++ v ++ a) (s := q) ⟨fun c hc => hap.1 c ?_, hap.2⟩
    · exact this
    · rwa [List.getLast?_append_of_ne_nil _ ha] at hc
  obtain ⟨r', hret', s1, ⟨b, hbl, -, s2, s3⟩, s4, s5, s6, s7, s8⟩ := day_mention hrt hx hday hc hT hst hw (fun k _ hk => by simpa using hk) h1 h2 hlen
  have hall : (toLower (p ++ v ++ a)).length = (p ++ v).length + a.length := by simp [toLower, Nat.add_assoc]
  have hbef : Before r r' := by
    unfold Before
    rw [s1, hall]
    have := List.length_pos_of_ne_nil ha
    omega
  have notag : ∀ t, t ≠ .casualDate → r'.getTag t = false := by
    intro t ht
    cases hg : r'.getTag t with
    | false => rfl
    | true => exact absurd (s8 t hg) ht
  have h24 : hour24 h ap < 24 := by
    unfold hour24
    rcases ap with _ | _ | _ <;> simp <;> omega
  obtain ⟨n1, n2, i1, i2, hrun⟩ := run_two hrt hs hlen (a := r) (b := r') ⟨timeExprParser, by simp [mainParsers], _, hret, by simp⟩
    ⟨casualDateParser, by simp [mainParsers], _, hret', by simp⟩ hbef (by
      intro P hPm
      rcases hq P hPm with rfl | rfl | rfl | hq
      · exact ⟨_, hret, fun y hy => .inl (by simpa using hy)⟩
      · exact ⟨_, hret', fun y hy => .inr (.inl (by simpa using hy))⟩
      · exact ⟨[], silent_returns (by unfold silent; rw [casualTime_pattern]; simp only [no_casualTime hw (near_notPart w hwn), Option.isNone_none]), by simp⟩
      · exact ⟨[], silent_returns hq, by simp⟩)
  refine prints_date_time n1 n2 i1 i2 hbef hrun (fun abbr off _ => hzone abbr off) (fun abbr off ht => ?_) ?_ r8 (notag _ (by decide)) r5 s7
    (d := r') (t := r) (.inr ⟨rfl, rfl⟩) s5 s6 r7 ?_ s4 r4 ⟨hc, h24, hmi, hsec⟩
  · exact absurd (s8 _ ht) (by decide)
  · intro k hk hi
    refine hj k hk (hi.trans ?_)
    rw [s2]
    exact ⟨b, [], by simp⟩
  · unfold isDateOnly; rw [r6]; rfl

/-! ## A day and then a time -/

/-- Where a clock time begins: at a blank, at a `t` or at the beginning of the text, perhaps with `at` or `from` after it. -/
theorem clock_lead {X P D R : Text} (hX : toLower X = X) (e : X = P ++ (D ++ R)) (hne : D ≠ []) (hP : ∀ c ∈ P, isDigitB c = false)
    (hD : ∀ c ∈ D, isDigitB c = true) (hclk : ∀ k ∈ clockKeys, ¬ Occurs k.atStart k.word k.atEnd X) {q : Nat} (hq : q ≤ P.length) {s' : St}
    (h : Rel Ast.timeExpr (startSt X q) s') :
    ∃ A c k, P = A ++ c ++ k ∧ A.length = q ∧ c.length ≤ 1 ∧ (∀ x ∈ c, Blank x ∨ x = 116) ∧
      (k = [] ∨ ∃ v ∈ [txt!"at", txt!"from"], ∃ g, Blanks g ∧ k = v ++ g) := by
  have hqX : q ≤ X.length := by rw [e, List.length_append]; omega
  obtain ⟨bb, n, mn, frac, range, hast, hbw, hbg, hfg, hrw, hrg, hk⟩ := timeExpr_all
  rw [hast] at h
  obtain ⟨z1, h1, h⟩ := rel_seq.1 h
  obtain ⟨z2, h2, h⟩ := rel_seq.1 h
  unfold clockRe at h
  obtain ⟨z3, h3, h⟩ := rel_seq.1 h
  have h3 : Rel (.cap 2 d14) z2 z3 := by
    rcases rel_cap2 h3 with h3 | ⟨s'', h3⟩
    · exact h3
    · exfalso
      have := Re.search_needs hk (by decide +kernel) (text := X) (by rw [hX]; exact hclk) (by simp)
      rw [hX] at this
      exact Re.search_none this _ hqX _ (.seq h1 (.seq h2 h3))
  obtain ⟨u1, c1⟩ := h1.consumed
  obtain ⟨u2, c2⟩ := h2.consumed
  obtain ⟨u3, c3⟩ := h3.consumed
  have hl3 : Lang d14 u3 := lang_cap ⟨_, _, h3, c3⟩
  have hd3 : ∀ c ∈ u3, isDigitB c = true := fun c hc => hl3.allB _ (by decide +kernel) c hc
  have hm3 : 1 ≤ u3.length := hl3.minLen
  have hL1 := lang_cap (show Lang (.cap 1 (.alt (.alt .bol blankRe) (.one (.ch true 84)))) u1 from ⟨_, _, h1, c1⟩)
  have hl1 : u1.length ≤ 1 := hL1.maxLen 1 rfl
  have r1 : X.drop q = u1 ++ z1.rest := c1.rest
  have r2 : z1.rest = u2 ++ z2.rest := c2.rest
  have r3 : z2.rest = u3 ++ z3.rest := c3.rest
  have hu1' : ∀ c ∈ u1, Blank c ∨ lowerB c = 116 := by
    intro c hc
    have := hL1.allB (fun x => isSpaceB x || lowerB x == 116) (by decide +kernel) c hc
    simp only [Bool.or_eq_true, beq_iff_eq] at this
    exact this.imp isSpace_blank id
  have hu1 : ∀ c ∈ u1, isDigitB c = false := by
    intro c hc
    have := hL1.allB (fun x => !isDigitB x) (by decide +kernel) c hc
    simpa using this
  have hsplit : X = X.take q ++ u1 ++ u2 ++ u3 ++ z3.rest := by
    calc X = X.take q ++ X.drop q := (List.take_append_drop _ _).symm
      _ = _ := by rw [r1, r2, r3]; simp only [List.append_assoc]
  have hi2 : u2 <:+: X := ⟨X.take q ++ u1, u3 ++ z3.rest, by rw [← List.append_assoc]; exact hsplit.symm⟩
  have hu2 : u2 = [] ∨ ∃ v ∈ [txt!"at", txt!"from"], ∃ gg, Blanks gg ∧ u2 = v ++ gg := by
    rcases rel_alt.1 h2 with h2' | h2'
    · left
      have := rel_eps.1 h2'
      have hp := c2.pos
      rw [this] at hp
      exact List.length_eq_zero_iff.1 (by omega)
    · right
      obtain ⟨y, k1, k2⟩ := rel_seq.1 h2'
      obtain ⟨v1, d1⟩ := k1.consumed
      obtain ⟨v2, d2⟩ := k2.consumed
      have e2 : u2 = v1 ++ v2 := c2.word_eq (d1.trans d2)
      refine ⟨v1, ?_, v2, fun c hc => isSpace_blank ((show Lang (.star true blankRe) v2 from ⟨_, _, k2, d2⟩).allB isSpaceB (by decide +kernel) c hc), e2⟩
      have hw := (show Lang bb v1 from ⟨_, _, k1, d1⟩).words _ hbw
      rwa [lower_infix hX (List.IsInfix.trans ⟨[], v2, by rw [e2]; simp⟩ hi2)] at hw
  have hn2 : ∀ c ∈ u2, isDigitB c = false := by
    rcases hu2 with rfl | ⟨v, hv, gg, hg, rfl⟩
    · simp
    · intro c hc
      rcases List.mem_append.1 hc with hc | hc
      · have key : ∀ v ∈ [txt!"at", txt!"from"], ∀ c ∈ v, isDigitB c = false := by decide
        exact key v hv c hc
      · exact blank_noDigit (hg c hc)
  have hA : ∀ c ∈ X.take q ++ u1 ++ u2, isDigitB c = false := by
    intro c hc
    simp only [List.mem_append] at hc
    rcases hc with (hc | hc) | hc
    · rw [e, List.take_append_of_le_length hq] at hc
      exact hP c (List.mem_of_mem_take hc)
    · exact hu1 c hc
    · exact hn2 c hc
  have hPe : P = X.take q ++ u1 ++ u2 := by
    have e' : P ++ (D ++ R) = (X.take q ++ u1 ++ u2) ++ (u3 ++ z3.rest) := by rw [← e, ← List.append_assoc]; exact hsplit
    rcases List.append_eq_append_iff.1 e' with ⟨a', h5, h6⟩ | ⟨a', h5, h6⟩
    · cases a' with
      | nil => rw [h5]; simp
      | cons y ys =>
        obtain ⟨dd, D', rfl⟩ : ∃ c t, D = c :: t := by cases D with | nil => exact absurd rfl hne | cons c t => exact ⟨c, t, rfl⟩
        simp only [List.cons_append, List.cons.injEq] at h6
        have q1 := hD dd (by simp)
        have q2 := hA y (by rw [h5]; simp)
        rw [h6.1, q2] at q1; cases q1
    · cases a' with
      | nil => rw [h5]; simp
      | cons y ys =>
        obtain ⟨dd, D', rfl⟩ : ∃ c t, u3 = c :: t := by cases u3 with | nil => simp at hm3 | cons c t => exact ⟨c, t, rfl⟩
        simp only [List.cons_append, List.cons.injEq] at h6
        have q1 := hd3 dd (by simp)
        have q2 := hP y (by rw [h5]; simp)
        rw [h6.1, q2] at q1; cases q1
  refine ⟨X.take q, u1, u2, hPe, by rw [List.length_take]; omega, hl1, fun x hx => ?_, hu2⟩
  rcases hu1' x hx with h | h
  · exact .inl h
  · right
    have hm : x ∈ X.take q ++ u1 ++ u2 ++ u3 ++ z3.rest := by simp [hx]
    rw [← hsplit] at hm
    rw [lower_mem hX hm] at h
    exact h

theorem named_noAt : ∀ w ∈ [txt!"today", txt!"tonight", txt!"tomorrow", txt!"tmr", txt!"yesterday", txt!"morning", txt!"afternoon", txt!"evening", txt!"night"], ∀ v ∈ [txt!"at", txt!"from"], ¬ v <:+ w ∧ (w.length ≤ v.length → ¬ w <:+ v) := by decide +kernel

theorem trim_eq {A B g h : Text} (e : A ++ g = B ++ h) (hg : Blanks g) (hh : Blanks h) (hA : ∀ c, A.getLast? = some c → ¬ Blank c) (hB : ∀ c, B.getLast? = some c → ¬ Blank c) : A = B := by
  rcases List.append_eq_append_iff.1 e with ⟨a', h5, h6⟩ | ⟨a', h5, h6⟩
  · rcases List.eq_nil_or_concat a' with rfl | ⟨t, c, rfl⟩
    · rw [h5]; simp
    · rw [List.concat_eq_append] at h5 h6
      exact absurd (hg c (by rw [h6]; simp)) (hB c (by rw [h5]; simp))
  · rcases List.eq_nil_or_concat a' with rfl | ⟨t, c, rfl⟩
    · rw [h5]; simp
    · rw [List.concat_eq_append] at h5 h6
      exact absurd (hh c (by rw [h6]; simp)) (hA c (by rw [h5]; simp))

/-- The time begins after the mention of the day, unless just blanks, perhaps with `at` or `from`, stand between them. -/
theorem lead_after {P w a A c k b a2 : Text}
    (hw : w ∈ [txt!"today", txt!"tonight", txt!"tomorrow", txt!"tmr", txt!"yesterday", txt!"morning", txt!"afternoon", txt!"evening", txt!"night"])
    (e : P ++ w ++ a = A ++ c ++ k) (hc : c.length ≤ 1) (hk : k = [] ∨ ∃ v ∈ [txt!"at", txt!"from"], ∃ g, Blanks g ∧ k = v ++ g)
    (ha : a ≠ []) (hhead : ∀ z, a.head? = some z → ¬ WordChar z) (hb : Blanks b) (hab : a = b ++ a2)
    (hl : b = [] ∨ w ∈ looseDays) (hj : w ∈ looseDays → ¬ ∃ b k g, Blanks b ∧ k ∈ [txt!"", txt!"at", txt!"from"] ∧ Blanks g ∧ a = b ++ k ++ g) :
    P.length + w.length + b.length ≤ A.length := by
  by_contra hlt
  have hlt : A.length < P.length + w.length + b.length := by omega
  have wl : ∀ w ∈ [txt!"today", txt!"tonight", txt!"tomorrow", txt!"tmr", txt!"yesterday", txt!"morning", txt!"afternoon", txt!"evening", txt!"night"],
      w ≠ [] ∧ ∀ c ∈ w, isWordB c = true := by decide
  obtain ⟨w0, wall⟩ := wl w hw
  have hlast : ∀ z, (P ++ w).getLast? = some z → ¬ Blank z := by
    intro z hz hbz
    rw [List.getLast?_append_of_ne_nil _ w0] at hz
    exact blank_notWord hbz (wordChar_iff.2 (wall z (List.mem_of_getLast? hz)))
  have len := congrArg List.length e
  have lab := congrArg List.length hab
  simp only [List.length_append] at len lab
  have hapos := List.length_pos_of_ne_nil ha
  -- blanks only
  have blank : Blanks a → w ∈ looseDays → False := fun h h' => hj h' ⟨a, [], [], h, by simp, by simp [Blanks], by simp⟩
  rcases hk with rfl | ⟨v, hv, g, hg, rfl⟩
  · have h0 : a2 = [] := List.length_eq_zero_iff.1 (by simp at len; omega)
    rw [h0, List.append_nil] at hab
    rcases hl with h | h
    · exact ha (hab.trans h)
    · exact blank (by rw [hab]; exact hb) h
  · have vlast : ∀ z, (A ++ c ++ v).getLast? = some z → ¬ Blank z := by
      intro z hz
      have key : ∀ v ∈ [txt!"at", txt!"from"], v ≠ [] ∧ ∀ c ∈ v, isWordB c = true := by decide
      obtain ⟨k1, k2⟩ := key v hv
      rw [List.getLast?_append_of_ne_nil _ k1] at hz
      exact fun hbz => blank_notWord hbz (wordChar_iff.2 (k2 z (List.mem_of_getLast? hz)))
    have vword : ∀ z ∈ v, isWordB z = true := by
      have key : ∀ v ∈ [txt!"at", txt!"from"], ∀ c ∈ v, isWordB c = true := by decide
      exact key v hv
    by_cases hba : Blanks a
    · have hnl : w ∉ looseDays := fun h => blank hba h
      have e2 : P ++ w = A ++ c ++ v := trim_eq (g := a) (h := g) (by rw [e]; simp) hba hg hlast vlast
      obtain ⟨n1, n2⟩ := named_noAt w hw v hv
      have s1 : w <:+ P ++ w := List.suffix_append _ _
      have s2 : v <:+ P ++ w := by rw [e2]; exact List.suffix_append _ _
      rcases Nat.le_total v.length w.length with h | h
      · exact n1 (List.suffix_of_suffix_length_le s2 s1 h)
      · exact n2 h (List.suffix_of_suffix_length_le s1 s2 h)
    · have e3 : (P ++ w) ++ a = (A ++ c) ++ (v ++ g) := e
      rcases List.append_eq_append_iff.1 e3 with ⟨a1, h5, h6⟩ | ⟨a1, h5, h6⟩
      · -- a = a1 ++ v ++ g
        have l5 := congrArg List.length h5
        simp only [List.length_append] at l5
        cases a1 with
        | nil =>
          obtain ⟨z, t, rfl⟩ : ∃ z t, v = z :: t := by
            cases v with
            | nil => simp at hv
            | cons z t => exact ⟨z, t, rfl⟩
          exact hhead z (by rw [h6]; rfl) (wordChar_iff.2 (vword z (by simp)))
        | cons z t =>
          have hle : (z :: t).length ≤ b.length := by omega
          have hb1 : Blanks (z :: t) := by
            have p1 : z :: t <+: a := ⟨v ++ g, h6.symm⟩
            have p2 : b <+: a := ⟨a2, hab.symm⟩
            obtain ⟨y, hy⟩ := List.prefix_of_prefix_length_le p1 p2 hle
            exact fun c hc => hb c (by rw [← hy]; exact List.mem_append_left _ hc)
          rcases hl with h | h
          · rw [h] at hle; simp at hle
          · exact hj h ⟨z :: t, v, g, hb1, by simp at hv ⊢; tauto, hg, by rw [h6]; simp⟩
      · -- a is a suffix of v ++ g
        rcases List.append_eq_append_iff.1 h6 with ⟨a3, h7, h8⟩ | ⟨a3, h7, h8⟩
        · -- v = a1 ++ a3 ... a = a3' ++ g
          exact hba fun c hc => hg c (by rw [h8]; exact List.mem_append_right _ hc)
        · cases a3 with
          | nil => exact hba fun c hc => hg c (by rw [h8] at hc; simpa using hc)
          | cons z t => exact hhead z (by rw [h8]; rfl) (wordChar_iff.2 (vword z (by rw [h7]; simp)))

/-- The last character of a time. -/
theorem written_end {D S sfx : Text} {t : Tail} {ap : Option Bool} (hne : D ≠ []) (hD : ∀ c ∈ D, isDigitB c = true) (hw : HalfWritten sfx ap S) :
    ∃ A c, D ++ (t.text ++ sfx) = A ++ [c] ∧ (isDigitB c = true ∨ c ∈ [58, 109, 46, 107]) := by
  rcases hw with ⟨rfl, -, -⟩ | ⟨b, w, -, hm, rfl⟩
  · rw [List.append_nil]
    rcases List.eq_nil_or_concat (D ++ t.text) with h0 | ⟨A, c, h0⟩
    · exact absurd (List.append_eq_nil_iff.1 h0).1 hne
    · rw [List.concat_eq_append] at h0
      refine ⟨A, c, h0, ?_⟩
      have hc : c ∈ D ++ t.text := by rw [h0]; simp
      rcases List.mem_append.1 hc with hc | hc
      · exact .inl (hD c hc)
      · exact (tail_chars hc).imp id fun h => by rw [h]; decide
  · have key : ∀ z ∈ halves, z.1 = z.1.dropLast ++ [z.1.getLastD 0] ∧ z.1.getLastD 0 ∈ [58, 109, 46, 107] := by decide
    obtain ⟨k1, k2⟩ := key _ hm
    refine ⟨D ++ (t.text ++ (b ++ w.dropLast)), _, ?_, .inr k2⟩
    conv => lhs; rw [show w = w.dropLast ++ [w.getLastD 0] from k1]
    simp

theorem day_and_time {rt : Rt} (hrt : Rt.Defined rt) {sort : List PResult → List PResult} (hs : Sorts sort) {ref : PTime} {x : DateTime} (hx : RefReads ref x)
    {p v s a u q w D sfx : Text} {t : Tail} {ap : Option Bool} {h mi y m d : Nat} {H : Int} (hv : toLower v = D ++ (t.text ++ sfx)) (hne : D ≠ []) (hD : ∀ c ∈ D, isDigitB c = true) (h4 : D.length ≤ 4)
    (hH : hourOf D = .ok H) (hM : minuteOf H (tailMinutes t) = .ok ((h : Int), (mi : Int)))
    (hh : h < 24) (h12 : sfx ≠ [] → h ≤ 12) (hmi : mi < 60) (hsec : t.second < 60) (hsf : HalfWritten sfx ap s)
    (hlead : ∀ c, p.getLast? = some c → Blank c) (hend : ∀ c, s.head? = some c → ¬ WordChar c) (hp : NoDigits p) (hd : NoDigits s)
    (hb : ∀ c ∈ s, c < 256) (hw : FewDateWords [w] (p ++ v ++ s)) (hm : ¬ EndsWithMonth p) (hz : ¬ OnlyAZone s)
    (hlen : (p ++ v ++ s).length < 4294967296)
    (hsu : p = q ++ u ++ a) (hu : toLower u = w) (hday : DayNamed x w (y, m, d)) (hc : CivilInRange y m d) (hap : StandsApart q a)
    (h1 : ¬ WholeWord w (toLower q)) (h2 : ¬ WholeWord w (toLower (a ++ v ++ s))) (hja : w ∈ [txt!"tomorrow", txt!"tmr", txt!"yesterday"] → ¬ JustAt a)
    (hj : ∀ k ∈ joinWords, ¬ k <:+: toLower s) :
    mainRun rt sort (p ++ v ++ s) ref = .ok (foundLine ++ (DateTime.mk y m d (hour24 h ap) mi t.second).format) := by
  have hwn := named_near hday
  obtain ⟨w0, wall, -⟩ := nearDays_word w hwn
  have ha : a ≠ [] := by
    rintro rfl
    rcases List.eq_nil_or_concat u with rfl | ⟨u', c, rfl⟩
    · exact w0 hu.symm
    · rw [List.concat_eq_append] at hsu hu
      have hbc := hlead c (by rw [hsu]; simp)
      refine blank_notWord hbc ?_
      rw [← wordChar_lower, wordChar_iff]
      exact wall _ (by rw [← hu]; simp [toLower])
  have hlow : toLower (p ++ v ++ s) = toLower p ++ (D ++ (t.text ++ (sfx ++ toLower s))) := by
    rw [toLower_append, toLower_append, hv]; simp
  have hP := lower_noDigits hp
  obtain ⟨hclk, hq⟩ := others_silent hv hD hsf hlead hp hd hw hm (near_notOther w hwn) (near_notMonth w hwn)
  obtain ⟨r, e, hret, r3, r4, r5, r6, r7, r8, r9, r10, r11, r12, ⟨mt, hsr, hix, hle⟩, hzone⟩ := clock_mention hrt hx hv hne hD h4 hH hM hh h12 hmi hsec hsf hlead hend hp hd hb hclk hz hlen
  have hT : toLower (p ++ v ++ s) = toLower q ++ w ++ toLower (a ++ v ++ s) := by
    rw [hsu, ← hu]; simp [toLower_append]
  have hst : StandsApart (toLower q) (toLower (a ++ v ++ s)) := by
    have := standsApart_lower (p := q) (s := a ++ v ++ s) ⟨hap.1, fun c hc => hap.2 c ?_⟩
    · exact this
    · cases a with
      | nil => exact absurd rfl ha
      | cons z t => exact hc
  obtain ⟨r', hret', s1, ⟨b, hbl, hbl', s2, s3⟩, s4, s5, s6, s7, s8⟩ := day_mention hrt hx hday hc hT hst hw (fun k _ hk => by simpa using hk) h1 h2 hlen
  have hlp : (toLower p).length = p.length := by simp [toLower]
  have hbef : Before r' r := by
    unfold Before
    obtain ⟨-, -, ⟨s', -, hpos, -, hrel⟩, -⟩ := Re.search_some hsr
    obtain ⟨A, c, k, k1, k2, k3, -, k5⟩ := clock_lead (toLower_toLower _) hlow hne hP hD hclk (by omega) hrel
    -- the blanks of the mention lie between the day and the time
    obtain ⟨a2, ha2⟩ : b <+: toLower a := by
      have p1 : b <+: toLower (a ++ v ++ s) := ⟨_, s2.symm⟩
      have p2 : toLower a <+: toLower (a ++ v ++ s) := ⟨toLower (v ++ s), by simp [toLower_append]⟩
      rcases Nat.le_total b.length (toLower a).length with h | h
      · exact List.prefix_of_prefix_length_le p1 p2 h
      · obtain ⟨z, hz⟩ := List.prefix_of_prefix_length_le p2 p1 h
        cases z with
        | nil => exact ⟨[], by rw [← hz]; simp⟩
        | cons z0 zs =>
          exfalso
          obtain ⟨d0, D', rfl⟩ : ∃ z t, D = z :: t := by cases D with | nil => exact absurd rfl hne | cons z t => exact ⟨z, t, rfl⟩
          have e1 : toLower (a ++ v ++ s) = toLower a ++ (d0 :: D' ++ (t.text ++ sfx)) ++ toLower s := by rw [toLower_append, toLower_append, hv]
          rw [e1, ← hz] at s2
          simp only [List.append_assoc, List.append_cancel_left_eq, List.cons_append, List.cons.injEq] at s2
          have h5 := blank_noDigit (hbl z0 (by rw [← hz]; simp))
          rw [← s2.1, hD d0 (by simp)] at h5
          cases h5
    have hkey := lead_after (named_both hday) (P := toLower q) (a := toLower a) (A := A) (c := c) (k := k) (b := b) (a2 := a2)
      (by rw [← k1, hsu, ← hu]; simp [toLower_append]) k3 k5 (by simpa [toLower] using ha) (fun z hz => ?_) hbl ha2.symm hbl' (fun hl => ?_)
    · rw [hix, s3, ← k2]; exact hkey
    · refine hst.2 z ?_
      rw [toLower_append, toLower_append]
      cases hla : toLower a with
      | nil => rw [hla] at hz; cases hz
      | cons z' t' => rw [hla] at hz; exact hz
    · exact hja (by simpa [looseDays] using hl)
  have notag : ∀ t, t ≠ .casualDate → r'.getTag t = false := by
    intro t ht
    cases hg : r'.getTag t with
    | false => rfl
    | true => exact absurd (s8 t hg) ht
  have h24 : hour24 h ap < 24 := by
    unfold hour24
    rcases ap with _ | _ | _ <;> simp <;> omega
  obtain ⟨n1, n2, i1, i2, hrun⟩ := run_two hrt hs hlen (a := r') (b := r) ⟨casualDateParser, by simp [mainParsers], _, hret', by simp⟩
    ⟨timeExprParser, by simp [mainParsers], _, hret, by simp⟩ hbef (by
      intro P hPm
      rcases hq P hPm with rfl | rfl | rfl | hq
      · exact ⟨_, hret, fun y hy => .inr (.inl (by simpa using hy))⟩
      · exact ⟨_, hret', fun y hy => .inl (by simpa using hy)⟩
      · exact ⟨[], silent_returns (by unfold silent; rw [casualTime_pattern]; simp only [no_casualTime hw (near_notPart w hwn), Option.isNone_none]), by simp⟩
      · exact ⟨[], silent_returns hq, by simp⟩)
  refine prints_date_time n1 n2 i1 i2 hbef hrun (fun abbr off ht => ?_) (fun abbr off _ => hzone abbr off) ?_ (notag _ (by decide)) r8 s7 r5
    (d := r') (t := r) (.inl ⟨rfl, rfl⟩) s5 s6 r7 ?_ s4 r4 ⟨hc, h24, hmi, hsec⟩
  · exact absurd (s8 _ ht) (by decide)
  · intro k hk hi
    obtain ⟨B, c, hA, hc1⟩ := written_end (t := t) hne hD hsf
    have hcut : toLower (p ++ v ++ s) = (toLower p ++ B) ++ (c :: toLower s) := by
      rw [toLower_append, toLower_append, hv, hA]; simp
    have hBl := congrArg List.length hA
    have hvl := congrArg List.length hv
    simp only [List.length_append, List.length_cons, List.length_nil] at hBl hvl r12
    have hlv : (toLower v).length = v.length := by simp [toLower]
    have hsuf : (toLower (p ++ v ++ s)).drop (stop r) <:+ c :: toLower s := by
      obtain ⟨n, hn⟩ : ∃ n, stop r = (toLower p ++ B).length + n := ⟨stop r - (toLower p ++ B).length, by simp only [List.length_append]; omega⟩
      rw [hcut, hn, ← List.drop_drop, List.drop_left]
      exact List.drop_suffix _ _
    rcases List.infix_cons_iff.1 (hi.trans hsuf.isInfix) with h | h
    · have hh : k.head? = some c := by
        obtain ⟨z, hz⟩ := h
        cases k with
        | nil => simp [rangeWords] at hk
        | cons k0 ks => simp only [List.cons_append, List.cons.injEq] at hz; rw [hz.1]; rfl
      have key : ∀ k ∈ rangeWords, ∀ c ∈ k.head?, isDigitB c = false ∧ c ∉ [58, 109, 46, 107] := by decide
      obtain ⟨k1, k2⟩ := key k hk c hh
      rcases hc1 with h | h
      · rw [h] at k1; cases k1
      · exact k2 h
    · exact hj k hk h
  · unfold isDateOnly; rw [r6]; rfl

/-! ## The theorems -/

/-- The hour, with or without minutes and seconds. -/
theorem clock_pieces {short : Bool} {h : Nat} {t : Tail} (hh : h < 24) (h9 : short = true → h ≤ 9) (hmi : t.minute < 60) :
    hourText short h ≠ [] ∧ (∀ c ∈ hourText short h, isDigitB c = true) ∧ (hourText short h).length ≤ 4 ∧ hourOf (hourText short h) = .ok (h : Int) ∧
      minuteOf (h : Int) (tailMinutes t) = .ok ((h : Int), (t.minute : Int)) := by
  have hbh : h < (if short then 10 else 100) := by
    cases short
    · simp; omega
    · have := h9 rfl; simp; omega
  refine ⟨?_, ?_, ?_, hourOf_text hbh, ?_⟩
  · cases short <;> simp [hourText, two]
  · intro c hc
    cases short <;> simp only [hourText, two, Bool.false_eq_true, if_false, if_true, List.mem_cons, List.not_mem_nil, or_false] at hc
    · rcases hc with rfl | rfl <;> exact dig_digit _
    · rw [hc]; exact dig_digit _
  · cases short <;> simp [hourText, two]
  · unfold minuteOf
    cases t with
    | none =>
      simp only [tailMinutes, List.isEmpty_nil, Bool.not_true, Bool.false_eq_true, if_false, Tail.minute]
      rw [if_neg (by omega)]; rfl
    | minutes mi =>
      rw [if_pos (by simp [tailMinutes, two]), show tailMinutes (.minutes mi) = two mi from rfl, stoi_two (by simp [Tail.minute] at hmi; omega)]; rfl
    | seconds mi se =>
      rw [if_pos (by simp [tailMinutes, two]), show tailMinutes (.seconds mi se) = two mi from rfl, stoi_two (by simp [Tail.minute] at hmi; omega)]; rfl

/-- **C91 (the time first).** A clock time, and later in the text `today`, `tonight`, `tomorrow`, `tmr` or `yesterday`, each in any letter case, with any text before, between and
after them (`Let us meet at 5 pm, maybe, tomorrow.`): if a blank or nothing stands before the time, if no letter, digit or `_` stands after it or beside the day, if there are no other
digits, no other words for dates and times and no name of a month right before the time, and if `and`, `to`, `through` and `-` do not occur after the day, then what the program
prints is that time on that day. -/
theorem c91_time_then_day_in_any_text (rt : Rt) (hrt : Rt.Defined rt) (sort : List PResult → List PResult) (hs : Sorts sort) (ref : PTime) (x : DateTime) (hx : RefReads ref x)
    (short : Bool) (h : Nat) (t : Tail) (sfx : Text) (ap : Option Bool) (p v a u q : Text) (hv : toLower v = clockText short h t sfx)
    (hh : h < 24) (h9 : short = true → h ≤ 9) (h12 : sfx ≠ [] → h ≤ 12) (hmi : t.minute < 60) (hsec : t.second < 60) (hsf : HalfWritten sfx ap (a ++ u ++ q))
    (hlead : ∀ c, p.getLast? = some c → Blank c) (hend : ∀ c, (a ++ u ++ q).head? = some c → ¬ WordChar c) (hp : NoDigits p) (hd : NoDigits (a ++ u ++ q))
    (hb : ∀ c ∈ a ++ u ++ q, c < 256) (y m d : Nat) (hday : DayNamed x (toLower u) (y, m, d)) (hc : CivilInRange y m d) (hap : StandsApart a q)
    (hw : FewDateWords [toLower u] (p ++ v ++ (a ++ u ++ q))) (h1 : ¬ WholeWord (toLower u) (toLower (p ++ v ++ a))) (h2 : ¬ WholeWord (toLower u) (toLower q))
    (hm : ¬ EndsWithMonth p) (hj : ∀ k ∈ joinWords, ¬ k <:+: toLower q) (hlen : (p ++ v ++ (a ++ u ++ q)).length < 4294967296) :
    mainRun rt sort (p ++ v ++ (a ++ u ++ q)) ref = .ok (foundLine ++ (DateTime.mk y m d (hour24 h ap) t.minute t.second).format) := by
  obtain ⟨k1, k2, k3, k4, k5⟩ := clock_pieces (t := t) hh h9 hmi
  exact time_and_day hrt hs hx (D := hourText short h) (t := t) (by rw [hv]; unfold clockText; simp) k1 k2 k3 k4 k5 hh h12 hmi hsec hsf hlead hend hp hd hb hw hm hlen
    rfl rfl hday hc hap h1 h2 hj

/-- **C91 (the day first).** The same for the day and later the time (`Tomorrow, or so, at 5 pm.`), if more than blanks, `at` or `from` stands between `tomorrow`, `tmr` or
`yesterday` and the time, if not just a time zone follows the time and if `and`, `to`, `through` and `-` do not occur after it. -/
theorem c91_day_then_time_in_any_text (rt : Rt) (hrt : Rt.Defined rt) (sort : List PResult → List PResult) (hs : Sorts sort) (ref : PTime) (x : DateTime) (hx : RefReads ref x)
    (short : Bool) (h : Nat) (t : Tail) (sfx : Text) (ap : Option Bool) (q u a v s : Text) (hv : toLower v = clockText short h t sfx)
    (hh : h < 24) (h9 : short = true → h ≤ 9) (h12 : sfx ≠ [] → h ≤ 12) (hmi : t.minute < 60) (hsec : t.second < 60) (hsf : HalfWritten sfx ap s)
    (hlead : ∀ c, (q ++ u ++ a).getLast? = some c → Blank c) (hend : ∀ c, s.head? = some c → ¬ WordChar c) (hp : NoDigits (q ++ u ++ a)) (hd : NoDigits s)
    (hb : ∀ c ∈ s, c < 256) (y m d : Nat) (hday : DayNamed x (toLower u) (y, m, d)) (hc : CivilInRange y m d) (hap : StandsApart q a)
    (hw : FewDateWords [toLower u] (q ++ u ++ a ++ v ++ s)) (h1 : ¬ WholeWord (toLower u) (toLower q)) (h2 : ¬ WholeWord (toLower u) (toLower (a ++ v ++ s)))
    (hja : toLower u ∈ [txt!"tomorrow", txt!"tmr", txt!"yesterday"] → ¬ JustAt a)
    (hm : ¬ EndsWithMonth (q ++ u ++ a)) (hz : ¬ OnlyAZone s) (hj : ∀ k ∈ joinWords, ¬ k <:+: toLower s) (hlen : (q ++ u ++ a ++ v ++ s).length < 4294967296) :
    mainRun rt sort (q ++ u ++ a ++ v ++ s) ref = .ok (foundLine ++ (DateTime.mk y m d (hour24 h ap) t.minute t.second).format) := by
  obtain ⟨k1, k2, k3, k4, k5⟩ := clock_pieces (t := t) hh h9 hmi
  exact day_and_time hrt hs hx (D := hourText short h) (t := t) (by rw [hv]; unfold clockText; simp) k1 k2 k3 k4 k5 hh h12 hmi hsec hsf hlead hend hp hd hb hw hm hz hlen
    rfl rfl hday hc hap h1 h2 hja hj

/-! ## The conditions can be met, and are needed -/

/-- The conditions, checked. -/
def timeDayChecks (p v s : Text) (w : Text) (sfx : Text) (ap : Option Bool) : Bool :=
  ((sfx == [] && ap == none && !halfB s) || halves.any fun z => z.2 == ap && (sfx == 32 :: z.1 || sfx == z.1)) && p.getLast?.all isSpaceB && !s.head?.any isWordB &&
    ((p ++ s).all fun c => !isDigitB c && decide (c < 256)) && ((dateWordChecks (p ++ v ++ s) [w]).drop 1).all id && !endsWithMonthB p

theorem timeDayChecks_sound {p v s w sfx : Text} {ap : Option Bool} (h : timeDayChecks p v s w sfx ap = true) :
    HalfWritten sfx ap s ∧ (∀ c, p.getLast? = some c → Blank c) ∧ (∀ c, s.head? = some c → ¬ WordChar c) ∧ NoDigits p ∧ NoDigits s ∧ (∀ c ∈ s, c < 256) ∧
      FewDateWords [w] (p ++ v ++ s) ∧ ¬ EndsWithMonth p := by
  unfold timeDayChecks at h
  simp only [Bool.and_eq_true, Bool.not_eq_true'] at h
  obtain ⟨⟨⟨⟨⟨h2, h3⟩, h3'⟩, h4⟩, h5⟩, h6⟩ := h
  have h4 := List.all_eq_true.1 h4
  have nd : ∀ c ∈ p ++ s, ¬ (48 ≤ c ∧ c ≤ 57) := fun c hc => by
    have := h4 c hc
    simp only [Bool.and_eq_true, isDigitB, Bool.not_eq_true', decide_eq_true_eq, Bool.and_eq_false_iff, decide_eq_false_iff_not] at this
    omega
  refine ⟨?_, fun c hc => ?_, fun c hc => ?_, fun c hc => nd c (by simp [hc]), fun c hc => nd c (by simp [hc]), fun c hc => ?_, fewDateWords_of h5,
    endsWithMonthB_sound h6⟩
  · rw [Bool.or_eq_true] at h2
    rcases h2 with h2 | h2
    · simp only [Bool.and_eq_true, beq_iff_eq, Bool.not_eq_true'] at h2
      exact .inl ⟨h2.1.1, h2.1.2, halfB_sound h2.2⟩
    · obtain ⟨w, hw, h2⟩ := List.any_eq_true.1 h2
      simp only [Bool.and_eq_true, Bool.or_eq_true, beq_iff_eq] at h2
      rcases h2.2 with h | h
      · exact .inr ⟨[32], w.1, by unfold Blanks Blank; decide, by rw [← h2.1]; exact hw, h⟩
      · exact .inr ⟨[], w.1, by simp [Blanks], by rw [← h2.1]; exact hw, h⟩
  · rw [hc] at h3
    exact isSpace_blank (by simpa using h3)
  · rw [hc] at h3'; rw [wordChar_iff]; simpa using h3'
  · have := h4 c (by simp [hc])
    simp only [Bool.and_eq_true, decide_eq_true_eq] at this
    exact this.2

/-- Enough for `¬ JustAt`: a character that is not blank and not in `at` or `from`. -/
def justAtB (a : Text) : Bool := (toLower a).all fun c => isSpaceB c || txt!"atfrom".contains c

theorem justAtB_sound {a : Text} (h : justAtB a = false) : ¬ JustAt a := by
  rintro ⟨b, k, g, hb, hk, hg, e⟩
  unfold justAtB at h
  rw [e] at h
  have : (b ++ k ++ g).all (fun c => isSpaceB c || txt!"atfrom".contains c) = true := by
    rw [List.all_eq_true]
    intro c hc
    simp only [List.mem_append] at hc
    rcases hc with (hc | hc) | hc
    · rw [blank_isSpace (hb c hc)]; rfl
    · have key : ∀ k ∈ [txt!"", txt!"at", txt!"from"], ∀ c ∈ k, (isSpaceB c || txt!"atfrom".contains c) = true := by decide
      exact key k hk c hc
    · rw [blank_isSpace (hg c hc)]; rfl
  rw [this] at h
  cases h

/-- 2019-03-15 14:00:00 -/
def afternoonRef : PTime := exampleRef.addSeconds 48600

theorem afternoonRef_reads : RefReads afternoonRef ⟨2019, 3, 15, 14, 0, 0⟩ := by
  refine ⟨?_, ?_, ?_, ?_⟩ <;> decide +kernel

/-- Samples: what stands before the time, the time, what stands between them, the day, what stands after it. -/
def timeThenDay : List ((Text × Text × Bool × Nat × Tail × Text × Option Bool) × Text × Text × Text × Nat × Nat × Nat) :=
  [((txt!"", txt!"5 pm", true, 5, .none, txt!" pm", some true), txt!" ", txt!"tomorrow", txt!"", 2019, 3, 16),
   ((txt!"Let us meet at ", txt!"5PM", true, 5, .none, txt!"pm", some true), txt!", maybe, ", txt!"Tomorrow", txt!" if you like (or call me).", 2019, 3, 16),
   ((txt!"the film of ", txt!"20:15", false, 20, .minutes 15, txt!"", none), txt!" (", txt!"tonight", txt!")", 2019, 3, 15),
   ((txt!"it rang at ", txt!"07:30:15", false, 7, .seconds 30 15, txt!"", none), txt!" sharp ", txt!"YESTERDAY", txt!", I believe", 2019, 3, 14)]

def dayThenTime : List (Text × Text × Text × (Text × Bool × Nat × Tail × Text × Option Bool) × Text × Nat × Nat × Nat) :=
  [(txt!"", txt!"today", txt!" at ", (txt!"9:30", true, 9, .minutes 30, txt!"", none), txt!"", 2019, 3, 15),
   (txt!"See you ", txt!"Tonight", txt!" ", (txt!"8 o'clock", true, 8, .none, txt!" o'clock", none), txt!" sharp, please!", 2019, 3, 15),
   (txt!"so ", txt!"TOMORROW", txt!", if you like, at ", (txt!"5pm", true, 5, .none, txt!"pm", some true), txt!" (or call me).", 2019, 3, 16),
   (txt!"It rang ", txt!"yesterday", txt!" just before ", (txt!"07:30:15", false, 7, .seconds 30 15, txt!"", none), txt!", I believe", 2019, 3, 14)]

theorem sample_days {y m d : Nat} {w : Text} (h : (w, y, m, d) ∈ [(txt!"today", 2019, 3, 15), (txt!"tonight", 2019, 3, 15), (txt!"tomorrow", 2019, 3, 16), (txt!"yesterday", 2019, 3, 14)]) :
    DayNamed ⟨2019, 3, 15, 14, 0, 0⟩ w (y, m, d) ∧ CivilInRange y m d := by
  simp only [List.mem_cons, Prod.mk.injEq, List.not_mem_nil, or_false] at h
  rcases h with ⟨rfl, rfl, rfl, rfl⟩ | ⟨rfl, rfl, rfl, rfl⟩ | ⟨rfl, rfl, rfl, rfl⟩ | ⟨rfl, rfl, rfl, rfl⟩
  · exact ⟨.today, by decide⟩
  · exact ⟨.tonight, by decide⟩
  · exact ⟨.tomorrow (x := ⟨2019, 3, 15, 14, 0, 0⟩) (by simp) (by decide), by decide⟩
  · exact ⟨.yesterday (by decide), by decide⟩

/-- **C91: the conditions are met** in ordinary texts, and the program prints the time on that day. -/
theorem c91_conditions_are_met_time_first : ∀ z ∈ timeThenDay, match z with
    | ((p, v, _, h, t, _, ap), a, u, q, y, m, d) =>
      mainRun (Rt.usual 0) sortKeep (p ++ v ++ (a ++ u ++ q)) afternoonRef = .ok (foundLine ++ (DateTime.mk y m d (hour24 h ap) t.minute t.second).format) := by
  have hck : ∀ z ∈ timeThenDay, match z with
    | ((p, v, short, h, t, sfx, ap), a, u, q, y, m, d) => toLower v = clockText short h t sfx ∧ timeDayChecks p v (a ++ u ++ q) (toLower u) sfx ap = true ∧
        (toLower u, y, m, d) ∈ [(txt!"today", 2019, 3, 15), (txt!"tonight", 2019, 3, 15), (txt!"tomorrow", 2019, 3, 16), (txt!"yesterday", 2019, 3, 14)] ∧
        (!a.getLast?.any isWordB && !q.head?.any isWordB) = true ∧ occursB true (toLower u) true (toLower (p ++ v ++ a)) = false ∧ occursB true (toLower u) true (toLower q) = false ∧
        (∀ k ∈ joinWords, ¬ k <:+: toLower q) ∧ h < 24 ∧ (short = true → h ≤ 9) ∧ (sfx ≠ [] → h ≤ 12) ∧ t.minute < 60 ∧ t.second < 60 ∧ (p ++ v ++ (a ++ u ++ q)).length < 4294967296 := by decide +kernel
  rintro ⟨⟨p, v, short, h, t, sfx, ap⟩, a, u, q, y, m, d⟩ hz
  obtain ⟨h1, h2, h3, h4, h5, h6, h7, h8, h9, h10, h11, h12, h13⟩ := hck _ hz
  obtain ⟨a1, a2, a3, a4, a5, a6, a7, a8⟩ := timeDayChecks_sound h2
  obtain ⟨d1, d2⟩ := sample_days h3
  rw [Bool.and_eq_true, Bool.not_eq_true', Bool.not_eq_true'] at h4
  exact c91_time_then_day_in_any_text _ usual_defined _ sortKeep_sorts _ _ afternoonRef_reads short h t sfx ap p v a u q h1 h8 h9 h10 h11 h12 a1 a2 a3 a4 a5 a6 y m d d1 d2
    ⟨fun c hc => by rw [hc] at h4; rw [wordChar_iff]; simpa using h4.1, fun c hc => by rw [hc] at h4; rw [wordChar_iff]; simpa using h4.2⟩ a7 (occursB_sound h5) (occursB_sound h6) a8 h7 h13

theorem c91_conditions_are_met_day_first : ∀ z ∈ dayThenTime, match z with
    | (q, u, a, (v, _, h, t, _, ap), s, y, m, d) =>
      mainRun (Rt.usual 0) sortKeep (q ++ u ++ a ++ v ++ s) afternoonRef = .ok (foundLine ++ (DateTime.mk y m d (hour24 h ap) t.minute t.second).format) := by
  have hck : ∀ z ∈ dayThenTime, match z with
    | (q, u, a, (v, short, h, t, sfx, ap), s, y, m, d) => toLower v = clockText short h t sfx ∧ timeDayChecks (q ++ u ++ a) v s (toLower u) sfx ap = true ∧
        (toLower u, y, m, d) ∈ [(txt!"today", 2019, 3, 15), (txt!"tonight", 2019, 3, 15), (txt!"tomorrow", 2019, 3, 16), (txt!"yesterday", 2019, 3, 14)] ∧
        (!q.getLast?.any isWordB && !a.head?.any isWordB) = true ∧ occursB true (toLower u) true (toLower q) = false ∧ occursB true (toLower u) true (toLower (a ++ v ++ s)) = false ∧
        (∀ k ∈ joinWords, ¬ k <:+: toLower s) ∧ h < 24 ∧ (short = true → h ≤ 9) ∧ (sfx ≠ [] → h ≤ 12) ∧ t.minute < 60 ∧ t.second < 60 ∧ (q ++ u ++ a ++ v ++ s).length < 4294967296 ∧
        (toLower u ∈ [txt!"tomorrow", txt!"tmr", txt!"yesterday"] → justAtB a = false) ∧ zoneB s = false := by decide +kernel
  rintro ⟨q, u, a, ⟨v, short, h, t, sfx, ap⟩, s, y, m, d⟩ hz
  obtain ⟨h1, h2, h3, h4, h5, h6, h7, h8, h9, h10, h11, h12, h13, h14, h15⟩ := hck _ hz
  obtain ⟨a1, a2, a3, a4, a5, a6, a7, a8⟩ := timeDayChecks_sound h2
  obtain ⟨d1, d2⟩ := sample_days h3
  rw [Bool.and_eq_true, Bool.not_eq_true', Bool.not_eq_true'] at h4
  exact c91_day_then_time_in_any_text _ usual_defined _ sortKeep_sorts _ _ afternoonRef_reads short h t sfx ap q u a v s h1 h8 h9 h10 h11 h12 a1 a2 a3 a4 a5 a6 y m d d1 d2
    ⟨fun c hc => by rw [hc] at h4; rw [wordChar_iff]; simpa using h4.1, fun c hc => by rw [hc] at h4; rw [wordChar_iff]; simpa using h4.2⟩ a7 (occursB_sound h5) (occursB_sound h6)
    (fun hl => justAtB_sound (h14 hl)) a8 (zoneB_sound h15) h7 h13

/-- **C91: the conditions are needed.** With `and` after the day, with just blanks or `at` between `tomorrow` and the time, with `now`, something else is printed than that time on that
day; a long time after `tmr at` even suppresses the day. -/
theorem c91_conditions_are_needed :
    (∀ s ∈ [txt!"meet at 5pm tomorrow and then go", txt!"let us meet tomorrow at 5pm", txt!"tomorrow 5pm", txt!"tmr at 5:00:00 pm"],
      mainRun (Rt.usual 0) sortKeep s afternoonRef ≠ .ok (foundLine ++ (DateTime.mk 2019 3 16 17 0 0).format)) ∧
    mainRun (Rt.usual 0) sortKeep txt!"let us meet tomorrow at 5pm" afternoonRef = .ok (foundLine ++ (DateTime.mk 2019 3 16 0 0 0).format) ∧
    mainRun (Rt.usual 0) sortKeep txt!"tmr at 5:00:00 pm" afternoonRef = .ok (foundLine ++ (DateTime.mk 2019 3 15 17 0 0).format) := by
  decide +kernel

end Chrono.Props
