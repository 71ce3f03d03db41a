import Verif.Props.P75_FirstMention
/-!
# C98: any number of days in any text
-/
namespace Chrono.Props
open Chrono Chrono.Spec Chrono.Boost

/-! ## Every word names a moment -/

theorem dayBefore_exists {y m d : Nat} (h : Civil y m d) (hy : 1 ≤ y) : ∃ y' m' d', Civil y' m' d' ∧ y ≤ y' + 1 ∧ y' ≤ y ∧ nextDay (y', m', d') = (y, m, d) := by
  obtain ⟨h1, h2, h3, h4⟩ := h
  by_cases hd : 1 < d
  · refine ⟨y, m, d - 1, ⟨h1, h2, by omega, by omega⟩, by omega, Nat.le_refl _, ?_⟩
    rw [nextDay_eq, if_pos (by omega), Nat.sub_add_cancel (by omega)]
  · have hd1 : d = 1 := by omega
    by_cases hm : 1 < m
    · have hb := monthLength_bounds y (m - 1) (by omega) (by omega)
      refine ⟨y, m - 1, monthLength y (m - 1), ⟨by omega, by omega, by omega, Nat.le_refl _⟩, by omega, Nat.le_refl _, ?_⟩
      rw [nextDay_eq, if_neg (by omega), if_pos (by omega), Nat.sub_add_cancel (by omega), hd1]
    · have hm1 : m = 1 := by omega
      refine ⟨y - 1, 12, 31, ⟨by omega, by omega, by omega, by simp [monthLength]⟩, by omega, by omega, ?_⟩
      rw [nextDay_eq, if_neg (by simp [monthLength]), if_neg (by omega), hm1, hd1, Nat.sub_add_cancel hy]

/-- Away from the ends of the calendar, each of the words names a moment. -/
theorem moment_exists {x : DateTime} (hv : x.Valid) (h1 : 1400 < x.year) (h2 : x.year < 9999) {w : Text} (hw : w ∈ nearDays) : ∃ z, MomentNamed x w z ∧ z.Valid := by
  have hvv := hv
  obtain ⟨⟨v1, v2, v3⟩, v4, v5, v6⟩ := hv
  have tomorrow : ∀ {w : Text}, w ∈ [txt!"tomorrow", txt!"tmr"] → ∃ z, MomentNamed x w z ∧ z.Valid := by
    intro w hw
    have hw' : w ∈ [txt!"today", txt!"tomorrow", txt!"tmr"] := List.mem_cons_of_mem _ hw
    by_cases h0 : x.hour = 0
    · exact ⟨_, .day hw' (.firstHour hw h0), ⟨⟨v1, v2, v3⟩, (by decide : (0:Nat) < 24), (by decide : (0:Nat) < 60), (by decide : (0:Nat) < 60)⟩⟩
    · have hc := nextDay_civil v3
      generalize hn : nextDay (x.year, x.month, x.day) = n at hc
      obtain ⟨y, m, d⟩ := n
      have hy : x.year ≤ y ∧ y ≤ x.year + 1 := by
        rw [nextDay_eq] at hn
        split at hn
        · simp only [Prod.mk.injEq] at hn; omega
        · split at hn <;> (simp only [Prod.mk.injEq] at hn; omega)
      have hday : DayNamed x w (y, m, d) := by
        rw [← hn]; exact .tomorrow hw (by omega)
      exact ⟨_, .day hw' hday, ⟨⟨by show 1400 ≤ y; omega, by show y ≤ 9999; omega, hc⟩, (by decide : (0:Nat) < 24), (by decide : (0:Nat) < 60), (by decide : (0:Nat) < 60)⟩⟩
  simp only [nearDays, List.mem_cons, List.not_mem_nil, or_false] at hw
  rcases hw with rfl | rfl | rfl | rfl | rfl | rfl
  · exact ⟨x, .now, hvv⟩
  · exact ⟨_, .day (x := x) (by simp) .today, ⟨⟨v1, v2, v3⟩, (by decide : (0:Nat) < 24), (by decide : (0:Nat) < 60), (by decide : (0:Nat) < 60)⟩⟩
  · exact ⟨_, .tonight, ⟨⟨v1, v2, v3⟩, (by decide : (22:Nat) < 24), (by decide : (0:Nat) < 60), (by decide : (0:Nat) < 60)⟩⟩
  · exact tomorrow (by simp)
  · exact tomorrow (by simp)
  · obtain ⟨y, m, d, hc, hy1, hy2, hn⟩ := dayBefore_exists v3 (by omega)
    exact ⟨_, .yesterday hn, ⟨⟨by show 1400 ≤ y; omega, by show y ≤ 9999; omega, hc⟩, v4, (by decide : (0:Nat) < 60), (by decide : (0:Nat) < 60)⟩⟩

/-! ## Every match is a mention of a day -/

/-- What every mention of a day has in common. -/
def IsMoment (r : PResult) : Prop := (∃ z : DateTime, z.Valid ∧ Reads r.startDate z) ∧ isTimeOnly r = false ∧ r.hasEnd = false ∧ ∀ t, r.getTag t = true → t = .casualDate

/-- After a match of a pattern between word boundaries, words begin where they begin in the text. -/
theorem occurs_after_match {r : Re} (hf : framed r = true) {T : Text} {mt : Match} (h : r.search T = some mt) {e : Bool} {k : Text} (hk : k.head?.any isWordB = true)
    (ho : Occurs true k e (T.drop mt.stop)) : Occurs true k e T := by
  obtain ⟨-, hb, -⟩ := framed_edges hf h
  obtain ⟨a, b, hd, h1, h2⟩ := ho
  refine ⟨T.take mt.stop ++ a, b, by rw [List.append_assoc, List.append_assoc, ← List.append_assoc a, ← hd, List.take_append_drop], fun _ c hc => ?_, h2⟩
  cases ha : a.getLast? with
  | some d => rw [List.getLast?_append, ha] at hc; cases hc; exact h1 rfl c ha
  | none =>
    rw [List.getLast?_eq_none_iff] at ha
    subst ha
    rw [List.append_nil] at hc
    cases k with
    | nil => cases hk
    | cons x k =>
      simp only [List.head?_cons, Option.any_some] at hk
      exact boundary_before hb (c := x) (u := k ++ b) (by rw [hd]; rfl) hk c hc

/-- What the pattern finds is a name of a day, perhaps with blanks after it. -/
theorem casualDate_any {R : Text} (hRl : toLower R = R) (h : NoLastNight R) {mt : Match} (hm : Ast.casualDate.search R = some mt) :
    ∃ w ∈ nearDays, ∃ b, mt.str 0 = w ++ b ∧ Blanks b ∧ (b = [] ∨ w ∈ looseDays) := by
  obtain ⟨body, he, hfree, hwordy, hfull⟩ := casualDate_shape
  have hfr : framed Ast.casualDate = true := by rw [he]; rfl
  have hl : Lang body (mt.str 0) := framed_lang (by rw [← he]; exact hm)
  have hlow : toLower (mt.str 0) = mt.str 0 := lower_of_infix (t := R) (by rw [hRl]; exact str_infix hm 0)
  obtain ⟨e1, e2⟩ := framed_word hfr hm
  obtain ⟨-, -, hsplit⟩ := framed_edges hfr hm
  rcases wordy_lang hwordy hl hlow with h1 | ⟨w', hw', b, hb, hu⟩ | h1
  · exact ⟨mt.str 0, by simpa [exactDays, nearDays] using h1, [], by simp, by simp [Blanks], .inl rfl⟩
  · exact ⟨w', loose_near w' hw', b, hu, hb, .inr hw'⟩
  · exfalso
    obtain ⟨b, hb, hu⟩ := lastNight_words h1 hlow
    have ha : ∀ c, (R.take mt.start).getLast? = some c → ¬ WordChar c := e1 108 (txt!"ast" ++ b ++ txt!"night") (by rw [hu]; rfl) (by decide)
    have hz : ∀ c, (R.drop mt.stop).head? = some c → ¬ WordChar c := e2 116 (by rw [hu, List.getLast?_append]; rfl) (by decide)
    rw [hu] at hsplit
    rcases h with h2 | ⟨h2, h3⟩
    · exact h2 ⟨_, _, by rw [List.append_assoc]; simpa only [List.append_assoc] using hsplit, fun _ => ha, by simp⟩
    · cases hb0 : b.getLast? with
      | none =>
        rw [List.getLast?_eq_none_iff] at hb0
        subst hb0
        exact h2 ⟨_, _, by rw [List.append_assoc]; exact hsplit, fun _ => ha, fun _ => hz⟩
      | some c =>
        refine h3 ⟨R.take mt.start ++ (txt!"last" ++ b), _, by simpa only [List.append_assoc] using hsplit, fun _ x hx => ?_, fun _ => hz⟩
        rw [List.getLast?_append, List.getLast?_append, hb0] at hx
        cases hx
        exact blank_notWord (hb _ (List.mem_of_getLast? hb0))

/-- The words the parser looks for begin in the rest of the text only where they begin in the text. -/
def Begun (T : Text) (k : Nat) : Prop := ∀ (e : Bool) (w : Text), w.head?.any isWordB = true → Occurs true w e (T.drop k) → Occurs true w e T

theorem begun_zero (T : Text) : Begun T 0 := fun _ _ _ h => h

theorem begun_next {T : Text} {k : Nat} (hb : Begun T k) {mt : Match} (hm : Ast.casualDate.search (T.drop k) = some mt) : Begun T (k + mt.stop) := by
  obtain ⟨body, he, -⟩ := casualDate_shape
  have hfr : framed Ast.casualDate = true := by rw [he]; rfl
  intro e w hw ho
  rw [← List.drop_drop] at ho
  exact hb e w hw (occurs_after_match hfr hm hw ho)

theorem begun_lastNight {T : Text} {k : Nat} (hb : Begun T k) (h : NoLastNight T) : NoLastNight (T.drop k) :=
  h.imp (fun h ho => h (hb _ _ (by decide) ho)) fun h => ⟨fun ho => h.1 (hb _ _ (by decide) ho), fun ho => h.2 (hb _ _ (by decide) ho)⟩

theorem drop_lower {T : Text} (h : toLower T = T) (k : Nat) : toLower (T.drop k) = T.drop k :=
  lower_of_infix (t := T) (by rw [h]; exact (List.drop_suffix _ _).isInfix)

/-- The parser never fails on such a text, and returns nothing but moments. -/
theorem days_scan {rt : Rt} {ref : PTime} {x : DateTime} (hx : RefReads ref x) (hv : x.Valid) (hy1 : 1400 < x.year) (hy2 : x.year < 9999) {T : Text} (hTl : toLower T = T)
    (hlen : T.length < 4294967296) (hlast : NoLastNight T) {k : Nat} {g : Globals} {o : Out (List PResult × Globals)} (h : Scan rt casualDateParser Ast.casualDate T ref k g o) :
    Begun T k → k ≤ T.length → ∃ rs g', o = .ok (rs, g') ∧ ∀ y ∈ rs, k ≤ y.index ∧ IsMoment y := by
  have extract : ∀ {k : Nat} {mt : Match}, Begun T k → k ≤ T.length → Ast.casualDate.search (T.drop k) = some mt → ∃ r : PResult,
      (∀ g, casualDateParser.extract rt g (T.drop k) mt ref (k + mt.start) = .ok (r, g)) ∧ r.copy.index = k + mt.start ∧ IsMoment r.copy := by
    intro k mt hb hk hm
    have hRl := drop_lower hTl k
    obtain ⟨w, hw, b, hu, hbl, hwb⟩ := casualDate_any hRl (begun_lastNight hb hlast) hm
    obtain ⟨z, hz, hzv⟩ := moment_exists hv hy1 hy2 hw
    have hlow : toLower (w ++ b) = w ++ b := by rw [← hu]; exact lower_of_infix (t := T.drop k) (by rw [hRl]; exact str_infix hm 0)
    have hp := match_pos casualDate_min hm
    rw [List.length_drop] at hp
    obtain ⟨r, x1, -, x3, -, x5, x6, x7, x8⟩ := day_result (rt := rt) (tx := T.drop k) hx hz hzv hbl hwb hu hlow (idx := k + mt.start) (by omega)
    exact ⟨r, x1, x3, ⟨z, hzv, x5⟩, x6, x7, x8⟩
  induction h with
  | done h => intro _ _; exact ⟨[], _, rfl, by simp⟩
  | @step k g mt res g' out hs hx' hrest ih =>
    intro hb hk
    obtain ⟨r, x1, x2, x3⟩ := extract hb hk hs
    rw [x1 g] at hx'
    simp only [Out.ok.injEq, Prod.mk.injEq] at hx'
    obtain ⟨rfl, rfl⟩ := hx'
    have hp := match_pos casualDate_min hs
    rw [List.length_drop] at hp
    obtain ⟨rs, g2, rfl, hall⟩ := ih (begun_next hb hs) (by omega)
    refine ⟨_, _, rfl, fun y hy => ?_⟩
    have htl : ∀ y ∈ rs, k ≤ y.index ∧ IsMoment y := fun y hy => ⟨by have := (hall y hy).1; omega, (hall y hy).2⟩
    dsimp only at hy
    split at hy
    · rcases List.mem_cons.1 hy with rfl | hy
      · exact ⟨by rw [x2]; omega, x3⟩
      · exact htl y hy
    · exact htl y hy
  | fail hs hx' =>
    intro hb hk
    obtain ⟨r, x1, -⟩ := extract hb hk hs
    exact absurd (x1 _) (hx' _)

/-- A name of a day where the parser goes on: it is the next mention, and only moments follow it. -/
theorem days_next {rt : Rt} {ref : PTime} {x z : DateTime} (hx : RefReads ref x) (hv : x.Valid) (hy1 : 1400 < x.year) (hy2 : x.year < 9999) {T P w S : Text} (hTl : toLower T = T)
    (hlen : T.length < 4294967296) (hlast : NoLastNight T) {k : Nat} {g : Globals} {o : Out (List PResult × Globals)} (h : Scan rt casualDateParser Ast.casualDate T ref k g o)
    (hb : Begun T k) (hk : k ≤ T.length) (hd : MomentNamed x w z) (hz : z.Valid) (hT : T.drop k = P ++ w ++ S) (hps : StandsApart P S) (hP : ∀ v ∈ nearDays, ¬ WholeWord v P) :
    ∃ r rs g' b n g2, o = .ok (r :: rs, g') ∧ Blanks b ∧ S = b ++ T.drop n ∧ r.index = k + P.length ∧ stop r = n ∧ n = k + P.length + w.length + b.length ∧ n ≤ T.length ∧ Begun T n ∧
      Scan rt casualDateParser Ast.casualDate T ref n g2 (.ok (rs, g')) ∧ Reads r.startDate z ∧ IsMoment r ∧ ∀ y ∈ rs, Before r y ∧ IsMoment y := by
  have hw := moment_near hd
  have hRl := drop_lower hTl k
  obtain ⟨mt, b, hm, hu, hbl, hwb, hS, hst⟩ := casualDate_first hw hRl hT hps hP (begun_lastNight hb hlast)
  have hlow : toLower (w ++ b) = w ++ b := by rw [← hu]; exact lower_of_infix (t := T.drop k) (by rw [hRl]; exact str_infix hm 0)
  have hp := match_pos casualDate_min hm
  rw [List.length_drop] at hp
  obtain ⟨r, x1, x2, x3, x4, x5, x6, x7, x8⟩ := day_result (rt := rt) (tx := T.drop k) hx hd hz hbl hwb hu hlow (idx := k + mt.start) (by omega)
  have l1 := congrArg List.length hT
  have l2 := congrArg List.length hS
  simp only [List.length_append, List.length_drop] at l1 l2
  cases h with
  | done h => rw [hm] at h; cases h
  | fail hs hx' =>
    rw [hm] at hs; cases hs
    exact absurd (x1 _) (hx' _)
  | @step _ _ mt' res g' out hs hx' hrest =>
    rw [hm] at hs; cases hs
    rw [x1 g] at hx'
    simp only [Out.ok.injEq, Prod.mk.injEq] at hx'
    obtain ⟨rfl, rfl⟩ := hx'
    have hn := begun_next hb hm
    obtain ⟨rs, g2, rfl, hall⟩ := days_scan hx hv hy1 hy2 hTl hlen hlast hrest hn (by omega)
    have hstop : stop r.copy = k + mt.stop := by rw [x4]; omega
    refine ⟨r.copy, rs, g2, b, k + mt.stop, g, by simp [x2], hbl, by rw [← List.drop_drop]; exact hS, by rw [x3, hst], hstop, by omega, by omega, hn, hrest, x5, ⟨⟨z, hz, x5⟩, x6, x7, x8⟩, fun y hy => ?_⟩
    obtain ⟨h1, h2⟩ := hall y hy
    exact ⟨by unfold Before; rw [hstop]; exact h1, h2⟩

/-! ## The mentions of the whole text -/

/-- In a text that names nothing but near days, the mentions are those of one parser. -/
theorem days_mentions {rt : Rt} {ref : PTime} {X : Text} (hn : NoDateWordsBut nearDays X) {rs : List PResult} (h : ParserReturns rt ref X casualDateParser rs) :
    AllReturn rt ref X ∧ ∀ y, Mention rt ref X y ↔ y ∈ rs := by
  have ho := no_others hn (by decide)
  have quiet : ∀ {P : Parser} {r : Re}, P.pattern = some r → r.search (toLower X) = none → ParserReturns rt ref X P [] := by
    intro P r hr hn
    refine silent_returns ?_
    unfold silent
    rw [hr]
    simp only [hn, Option.isNone_none]
  have all : ∀ P ∈ mainParsers, ParserReturns rt ref X P [] ∨ P = casualDateParser := by
    intro P hPm
    simp only [mainParsers, List.mem_cons, List.not_mem_nil, or_false] at hPm
    rcases hPm with rfl | rfl | rfl | rfl | rfl | rfl | rfl | rfl | rfl | rfl | rfl | rfl
    · exact .inl (quiet casualTime_pattern (no_casualTime hn.toFewDateWords (by decide)))
    · exact .inl (quiet deadline_pattern (ho _ (by simp)))
    · exact .inl (silent_returns (by unfold silent; rw [dayOfWeek_pattern]))
    · exact .inr rfl
    · exact .inl (quiet middleEndian_pattern (ho _ (by simp)))
    · exact .inl (quiet timeLater_pattern (ho _ (by simp)))
    · exact .inl (quiet monthName_pattern (ho _ (by simp)))
    · exact .inl (quiet timeAgo_pattern (ho _ (by simp)))
    · exact .inl (quiet timeExpr_pattern (ho _ (by simp)))
    · exact .inl (quiet iso_pattern (ho _ (by simp)))
    · exact .inl (quiet holiday_pattern (ho _ (by simp)))
    · exact .inl (quiet week_pattern (ho _ (by simp)))
  refine ⟨fun P hP => ?_, fun y => ⟨?_, fun hy => ⟨casualDateParser, by simp [mainParsers], rs, h, hy⟩⟩⟩
  · rcases all P hP with h1 | rfl
    · exact ⟨_, h1⟩
    · exact ⟨_, h⟩
  · rintro ⟨P, hP, rs', h1, h2⟩
    rcases all P hP with h3 | rfl
    · rw [parserReturns_unique h1 h3] at h2; cases h2
    · rwa [parserReturns_unique h1 h] at h2

theorem moment_notTime {r : PResult} (h : IsMoment r) : ¬ TimeOnly r := by
  rw [← timeOnly_iff, h.2.1]; decide

theorem moment_noPair {r s : PResult} (hr : IsMoment r) (hs : IsMoment s) : ¬ DateTimePair r s := by
  rintro (⟨-, h⟩ | ⟨-, h⟩)
  · exact moment_notTime hs h
  · exact moment_notTime hr h

theorem moment_tag {r : PResult} (h : IsMoment r) {k : Tag} (hk : k ≠ .casualDate) : r.getTag k = false := by
  cases hg : r.getTag k with
  | false => rfl
  | true => exact absurd (h.2.2.2 k hg) hk

theorem moment_noZone {text : Text} {r : PResult} (h : IsMoment r) : NoZone text r := by
  intro abbr off ht
  rw [moment_tag h (by decide)] at ht
  cases ht

/-- Blanks at the front of a text that goes on with a word are at the front of what stands before the word. -/
theorem blanks_front {b A v u R : Text} (hb : Blanks b) (h : A ++ v ++ u = b ++ R) (hv : v ≠ []) (hw : ∀ c ∈ v, isWordB c = true) :
    ∃ A2, A = b ++ A2 ∧ R = A2 ++ v ++ u := by
  have key : b <+: A := by
    have p1 : b <+: A ++ v ++ u := ⟨_, h.symm⟩
    have p2 : A <+: A ++ v ++ u := ⟨v ++ u, by simp⟩
    rcases Nat.le_total b.length A.length with h1 | h1
    · exact List.prefix_of_prefix_length_le p1 p2 h1
    · obtain ⟨z, hz⟩ := List.prefix_of_prefix_length_le p2 p1 h1
      cases z with
      | nil => exact ⟨[], by rw [← hz]; simp⟩
      | cons z0 zs =>
        exfalso
        rw [← hz] at h
        obtain ⟨c, v, rfl⟩ := List.exists_cons_of_ne_nil hv
        simp only [List.append_assoc, List.append_cancel_left_eq, List.cons_append, List.cons.injEq] at h
        exact blank_notWord (hb z0 (by rw [← hz]; simp)) (wordChar_iff.2 (hw z0 (by rw [← h.1]; simp)))
  obtain ⟨A2, rfl⟩ := key
  refine ⟨A2, rfl, ?_⟩
  simp only [List.append_assoc, List.append_cancel_left_eq] at h
  rw [← h]; simp

/-- The mentions of a text that names nothing but near days: the first word, and after it only moments. -/
theorem first_day {rt : Rt} (hrt : Rt.Defined rt) {ref : PTime} {x t : DateTime} (hx : RefReads ref x) (hv : x.Valid) (hy1 : 1400 < x.year) (hy2 : x.year < 9999)
    {p v s : Text} (h1 : MomentNamed x (toLower v) t) (ht : t.Valid) (hps : StandsApart p s) (hn : NoDateWordsBut nearDays (p ++ v ++ s))
    (hp : ∀ w ∈ nearDays, ¬ WholeWord w (toLower p)) (hlen : (p ++ v ++ s).length < 4294967296) :
    ∃ r rs b n g2 g3, ParserReturns rt ref (p ++ v ++ s) casualDateParser (r :: rs) ∧ Blanks b ∧ toLower s = b ++ (toLower (p ++ v ++ s)).drop n ∧ stop r = n ∧
      n ≤ (toLower (p ++ v ++ s)).length ∧ Begun (toLower (p ++ v ++ s)) n ∧ Scan rt casualDateParser Ast.casualDate (toLower (p ++ v ++ s)) ref n g2 (.ok (rs, g3)) ∧
      Reads r.startDate t ∧ IsMoment r ∧ ∀ y ∈ rs, Before r y ∧ IsMoment y := by
  have hTl := toLower_toLower (p ++ v ++ s)
  have hlen' : (toLower (p ++ v ++ s)).length < 4294967296 := by simpa [toLower] using hlen
  have hsc := execute_scan (rt := rt) hrt.stale casualDate_pattern casualDate_min integerWords (p ++ v ++ s) ref
  obtain ⟨r, rs, g3, b, n, g2, ho, hb, hS, -, hst, -, hnl, hbg, hsc2, hr, hm, hall⟩ := days_next hx hv hy1 hy2 hTl hlen' hn.lastNight hsc (begun_zero _) (Nat.zero_le _) h1 ht
    (P := toLower p) (S := toLower s) (by rw [List.drop_zero]; simp [toLower_append]) (standsApart_lower hps) hp
  exact ⟨r, rs, b, n, g2, g3, ⟨g3, ho⟩, hb, hS, hst, hnl, hbg, hsc2, hr, hm, hall⟩

/-- The first two. -/
theorem first_days {rt : Rt} (hrt : Rt.Defined rt) {ref : PTime} {x t u : DateTime} (hx : RefReads ref x) (hv : x.Valid) (hy1 : 1400 < x.year) (hy2 : x.year < 9999)
    {p v1 a v2 s : Text} (h1 : MomentNamed x (toLower v1) t) (ht : t.Valid) (h2 : MomentNamed x (toLower v2) u) (hu : u.Valid)
    (hps : StandsApart p a) (has : StandsApart a s) (ha : a ≠ []) (hn : NoDateWordsBut nearDays (p ++ v1 ++ a ++ v2 ++ s))
    (hp : ∀ w ∈ nearDays, ¬ WholeWord w (toLower p) ∧ ¬ WholeWord w (toLower a)) (hlen : (p ++ v1 ++ a ++ v2 ++ s).length < 4294967296) :
    ∃ r1 r2 rs, ParserReturns rt ref (p ++ v1 ++ a ++ v2 ++ s) casualDateParser (r1 :: r2 :: rs) ∧ Before r1 r2 ∧ (∀ y ∈ rs, Before r2 y ∧ Before r1 y ∧ IsMoment y) ∧
      Reads r1.startDate t ∧ IsMoment r1 ∧ Reads r2.startDate u ∧ IsMoment r2 ∧
      (Joined (toLower (p ++ v1 ++ a ++ v2 ++ s)) r1 r2 ↔ ∃ k ∈ joinWords, k <:+: toLower a) := by
  obtain ⟨v0, vall, -⟩ := nearDays_word _ (moment_near h2)
  have hX : p ++ v1 ++ a ++ v2 ++ s = p ++ v1 ++ (a ++ v2 ++ s) := by simp
  rw [hX] at hn hlen ⊢
  have hs1 : StandsApart p (a ++ v2 ++ s) := ⟨hps.1, fun c hc => hps.2 c (by
    cases a with
    | nil => exact absurd rfl ha
    | cons z t => exact hc)⟩
  obtain ⟨r1, rs1, b, n, g2, g3, hret, hb, hS, hst, hnl, hbg, hsc, hr, hm, hall⟩ := first_day hrt hx hv hy1 hy2 h1 ht hs1 hn (fun w hw => (hp w hw).1) hlen
  have hs2' := standsApart_lower has
  generalize hT : toLower (p ++ v1 ++ (a ++ v2 ++ s)) = T at *
  have hTl : toLower T = T := by rw [← hT, toLower_toLower]
  have hlen' : T.length < 4294967296 := by rw [← hT]; simpa [toLower] using hlen
  rw [toLower_append, toLower_append] at hS
  obtain ⟨a2, ha2, hR⟩ := blanks_front hb hS v0 vall
  have hs3 : StandsApart a2 (toLower s) := by
    refine ⟨fun c hc => hs2'.1 c ?_, hs2'.2⟩
    rw [ha2, List.getLast?_append, hc]; rfl
  obtain ⟨r2, rs, g4, b2, m, g5, ho, -, -, hi2, -, -, -, -, -, hr2, hm2, hall2⟩ := days_next hx hv hy1 hy2 hTl hlen' (by rw [← hT]; exact hn.lastNight) hsc hbg hnl h2 hu
    hR hs3 (fun w hw hq => (hp w hw).2 (by rw [ha2]; exact occurs_after_blanks hb hq))
  simp only [Out.ok.injEq, Prod.mk.injEq] at ho
  obtain ⟨rfl, rfl⟩ := ho
  refine ⟨r1, r2, rs, hret, (hall r2 (by simp)).1, fun y hy => ⟨(hall2 y hy).1, (hall y (by simp [hy])).1, (hall2 y hy).2⟩, hr, hm, hr2, hm2, ?_⟩
  have hslice : slice T (stop r1) r2.index = a2 := by
    unfold slice
    rw [hst, hi2, hR, show n + a2.length - n = a2.length by omega, List.append_assoc, List.take_left]
  unfold Joined
  rw [hslice, ← joinWords_range, ha2]
  constructor
  · rintro ⟨k, hk, hi⟩
    exact ⟨k, hk, hi.trans ⟨b, [], by simp⟩⟩
  · rintro ⟨k, hk, hi⟩
    obtain ⟨k0, kn⟩ := joinWords_solid k hk
    exact ⟨k, hk, infix_after_blanks k0 kn hb hi⟩

theorem before_notOverlap {x y : PResult} (h : Before x y) : ¬ Overlap y x ∧ ¬ Overlap x y := by
  unfold Overlap Before at *; omega

/-- **C98 (a range).** Any number of the words `now`, `today`, `tonight`, `tomorrow`, `tmr` and `yesterday` in any text that names no other dates and times: if `and`, `to`, `through` or `-` occurs
between the first two of them, the program prints the range from the first to the second, whatever follows. -/
theorem c98_first_two_days_are_a_range (rt : Rt) (hrt : Rt.Defined rt) (sort : List PResult → List PResult) (hs : Sorts sort) (ref : PTime) (x t u : DateTime) (hx : RefReads ref x)
    (hv : x.Valid) (hy1 : 1400 < x.year) (hy2 : x.year < 9999)
    (p v1 a v2 s : Text) (h1 : MomentNamed x (toLower v1) t) (ht : t.Valid) (h2 : MomentNamed x (toLower v2) u) (hu : u.Valid)
    (hps : StandsApart p a) (has : StandsApart a s) (ha : a ≠ []) (hn : NoDateWordsBut nearDays (p ++ v1 ++ a ++ v2 ++ s))
    (hp : ∀ w ∈ nearDays, ¬ WholeWord w (toLower p) ∧ ¬ WholeWord w (toLower a)) (hlen : (p ++ v1 ++ a ++ v2 ++ s).length < 4294967296)
    (hj : ∃ k ∈ joinWords, k <:+: toLower a) :
    mainRun rt sort (p ++ v1 ++ a ++ v2 ++ s) ref = .ok (foundLine ++ t.format ++ txt!" - " ++ (if instant t ≤ instant u then u else t).format) := by
  obtain ⟨r1, r2, rs, hret, hbef, hall, hr1, hm1, hr2, hm2, hjoin⟩ := first_days hrt hx hv hy1 hy2 h1 ht h2 hu hps has ha hn hp hlen
  obtain ⟨har, hmen⟩ := days_mentions hn hret
  have mom : ∀ y, Mention rt ref (p ++ v1 ++ a ++ v2 ++ s) y → IsMoment y := by
    intro y hy
    rcases List.mem_cons.1 ((hmen y).1 hy) with rfl | hy
    · exact hm1
    rcases List.mem_cons.1 hy with rfl | hy
    · exact hm2
    · exact (hall y hy).2.2
  refine c96_first_two_of_dates_are_printed hrt hs hlen har ((hmen r1).2 (by simp)) ((hmen r2).2 (by simp)) hbef (moment_noZone hm1) (moment_noZone hm2) (moment_noPair hm1 hm2)
    hm1.2.2.1 hm2.2.2.1 (hjoin.2 hj) (moment_tag hm1 (by decide)) (moment_tag hm2 (by decide)) (fun y hy => ?_) ht hu hr1 hr2 (fun y hy => (mom y hy).1) (fun y z hy hz _ => moment_noPair (mom y hy) (mom z hz))
  have my := mom y hy
  rcases List.mem_cons.1 ((hmen y).1 hy) with rfl | hy
  · exact .inl rfl
  rcases List.mem_cons.1 hy with rfl | hy
  · exact .inr (.inl rfl)
  · exact .inr (.inr (.inr ⟨(hall y hy).1, .inl (moment_noPair hm2 my)⟩))

/-- **C98 (no range).** In the same texts, if none of `and`, `to`, `through` and `-` occurs between the first two of the words, the program prints the first moment alone, whatever follows. -/
theorem c98_first_of_the_days_is_printed (rt : Rt) (hrt : Rt.Defined rt) (sort : List PResult → List PResult) (hs : Sorts sort) (ref : PTime) (x t u : DateTime) (hx : RefReads ref x)
    (hv : x.Valid) (hy1 : 1400 < x.year) (hy2 : x.year < 9999)
    (p v1 a v2 s : Text) (h1 : MomentNamed x (toLower v1) t) (ht : t.Valid) (h2 : MomentNamed x (toLower v2) u) (hu : u.Valid)
    (hps : StandsApart p a) (has : StandsApart a s) (ha : a ≠ []) (hn : NoDateWordsBut nearDays (p ++ v1 ++ a ++ v2 ++ s))
    (hp : ∀ w ∈ nearDays, ¬ WholeWord w (toLower p) ∧ ¬ WholeWord w (toLower a)) (hlen : (p ++ v1 ++ a ++ v2 ++ s).length < 4294967296)
    (hj : ∀ k ∈ joinWords, ¬ k <:+: toLower a) :
    mainRun rt sort (p ++ v1 ++ a ++ v2 ++ s) ref = .ok (foundLine ++ t.format) := by
  obtain ⟨r1, r2, rs, hret, hbef, hall, hr1, hm1, hr2, hm2, hjoin⟩ := first_days hrt hx hv hy1 hy2 h1 ht h2 hu hps has ha hn hp hlen
  obtain ⟨har, hmen⟩ := days_mentions hn hret
  have mom : ∀ y, Mention rt ref (p ++ v1 ++ a ++ v2 ++ s) y → IsMoment y := by
    intro y hy
    rcases List.mem_cons.1 ((hmen y).1 hy) with rfl | hy
    · exact hm1
    rcases List.mem_cons.1 hy with rfl | hy
    · exact hm2
    · exact (hall y hy).2.2
  have hnj : ¬ Joined (toLower (p ++ v1 ++ a ++ v2 ++ s)) r1 r2 := fun h => by
    obtain ⟨k, hk, hi⟩ := hjoin.1 h
    exact hj k hk hi
  have hkept : Kept rt ref (p ++ v1 ++ a ++ v2 ++ s) r2 := by
    refine ⟨(hmen r2).2 (by simp), fun y hy => ?_⟩
    rcases List.mem_cons.1 ((hmen y).1 hy) with rfl | hy
    · exact .inr (.inl (before_notOverlap hbef).2)
    rcases List.mem_cons.1 hy with rfl | hy
    · exact .inl rfl
    · exact .inr (.inl (before_notOverlap (hall y hy).1).1)
  refine c95_first_of_dates_is_printed hrt hs hlen har ((hmen r1).2 (by simp)) (moment_noZone hm1) (fun y hy => ?_) (c08_toDate_prints_start r1 t ht hr1 hm1.2.2.1 (moment_tag hm1 (by decide)))
    (fun y hy => (mom y hy).1) (fun y z hy hz _ => moment_noPair (mom y hy) (mom z hz))
  have my := mom y hy
  rcases List.mem_cons.1 ((hmen y).1 hy) with rfl | hy
  · exact .inl rfl
  rcases List.mem_cons.1 hy with rfl | hy
  · exact .inr (.inr ⟨hbef, .inl ⟨moment_noPair hm1 my, .inr hnj⟩⟩)
  · exact .inr (.inr ⟨(hall y hy).2.1, .inr ⟨r2, hkept, hbef, (hall y hy).1⟩⟩)

/-- **C98 (one word or more).** If no `and`, `to`, `through` or `-` follows the first of the words anywhere, its moment is printed, however many words follow - or none. -/
theorem c98_first_day_is_printed (rt : Rt) (hrt : Rt.Defined rt) (sort : List PResult → List PResult) (hs : Sorts sort) (ref : PTime) (x t : DateTime) (hx : RefReads ref x)
    (hv : x.Valid) (hy1 : 1400 < x.year) (hy2 : x.year < 9999) (p v s : Text) (h1 : MomentNamed x (toLower v) t) (ht : t.Valid)
    (hps : StandsApart p s) (hn : NoDateWordsBut nearDays (p ++ v ++ s)) (hp : ∀ w ∈ nearDays, ¬ WholeWord w (toLower p)) (hlen : (p ++ v ++ s).length < 4294967296)
    (hj : ∀ k ∈ joinWords, ¬ k <:+: toLower s) :
    mainRun rt sort (p ++ v ++ s) ref = .ok (foundLine ++ t.format) := by
  obtain ⟨r, rs, b, n, g2, g3, hret, hb, hS, hst, -, -, -, hr, hm, hall⟩ := first_day hrt hx hv hy1 hy2 h1 ht hps hn hp hlen
  obtain ⟨har, hmen⟩ := days_mentions hn hret
  have mom : ∀ y, Mention rt ref (p ++ v ++ s) y → IsMoment y := by
    intro y hy
    rcases List.mem_cons.1 ((hmen y).1 hy) with rfl | hy
    · exact hm
    · exact (hall y hy).2
  refine c95_first_of_dates_is_printed hrt hs hlen har ((hmen r).2 (by simp)) (moment_noZone hm) (fun y hy => ?_) (c08_toDate_prints_start r t ht hr hm.2.2.1 (moment_tag hm (by decide)))
    (fun y hy => (mom y hy).1) (fun y z hy hz _ => moment_noPair (mom y hy) (mom z hz))
  have my := mom y hy
  rcases List.mem_cons.1 ((hmen y).1 hy) with rfl | hy
  · exact .inl rfl
  · refine .inr (.inr ⟨(hall y hy).1, .inl ⟨moment_noPair hm my, .inr ?_⟩⟩)
    rintro ⟨k, hk, hi⟩
    refine hj k hk (hi.trans ?_)
    unfold slice
    rw [hst, hS]
    exact (List.take_prefix _ _).isInfix.trans ⟨b, [], by simp⟩

/-! ## The conditions can be met, and are needed -/

/-- Samples: what stands before the first word, the word, what stands between it and the second, the second, what stands after - with more such words; the moments of the two. -/
def manyJoined : List ((Text × Text × Text × Text × Text) × DateTime × DateTime) :=
  [((txt!"from ", txt!"today", txt!" to ", txt!"tomorrow", txt!", not yesterday"), ⟨2019, 3, 15, 0, 0, 0⟩, ⟨2019, 3, 16, 0, 0, 0⟩),
   ((txt!"", txt!"Now", txt!" and ", txt!"TONIGHT", txt!" and tomorrow and tmr and today, today, today!"), ⟨2019, 3, 15, 14, 0, 0⟩, ⟨2019, 3, 15, 22, 0, 0⟩),
   ((txt!"it was ", txt!"today", txt!" - not ", txt!"yesterday", txt!""), ⟨2019, 3, 15, 0, 0, 0⟩, ⟨2019, 3, 14, 14, 0, 0⟩)]

def manySeparate : List ((Text × Text × Text × Text × Text) × DateTime × DateTime) :=
  [((txt!"", txt!"today", txt!", ", txt!"tomorrow", txt!" or yesterday and now"), ⟨2019, 3, 15, 0, 0, 0⟩, ⟨2019, 3, 16, 0, 0, 0⟩),
   ((txt!"We met ", txt!"YESTERDAY", txt!"; will we meet ", txt!"Tonight", txt!" or TMR (or tomorrow) and sing?"), ⟨2019, 3, 14, 14, 0, 0⟩, ⟨2019, 3, 15, 22, 0, 0⟩)]

/-- The conditions, checked. -/
def manyDaysChecks (p v1 a v2 s : Text) : Bool :=
  !p.getLast?.any isWordB && !a.head?.any isWordB && !a.getLast?.any isWordB && !s.head?.any isWordB && !a.isEmpty &&
    (dateWordChecks (p ++ v1 ++ a ++ v2 ++ s) nearDays).all id && nearDays.all fun w => !occursB true w true (toLower p) && !occursB true w true (toLower a)

theorem manyDaysChecks_sound {p v1 a v2 s : Text} (h : manyDaysChecks p v1 a v2 s = true) :
    StandsApart p a ∧ StandsApart a s ∧ a ≠ [] ∧ NoDateWordsBut nearDays (p ++ v1 ++ a ++ v2 ++ s) ∧ ∀ w ∈ nearDays, ¬ WholeWord w (toLower p) ∧ ¬ WholeWord w (toLower a) := by
  unfold manyDaysChecks at h
  simp only [Bool.and_eq_true, Bool.not_eq_true'] at h
  obtain ⟨⟨⟨⟨⟨⟨h1, h2⟩, h3⟩, h4⟩, h5⟩, h6⟩, h7⟩ := h
  have edge : ∀ {o : Option Nat}, o.any isWordB = false → ∀ c, o = some c → ¬ WordChar c := by
    rintro o ho c rfl
    rw [wordChar_iff]; simpa using ho
  refine ⟨⟨edge h1, edge h2⟩, ⟨edge h3, edge h4⟩, (by rintro rfl; cases h5), dateWordChecks_sound h6, fun w hw => ?_⟩
  have := List.all_eq_true.1 h7 w hw
  simp only [Bool.and_eq_true, Bool.not_eq_true'] at this
  exact ⟨occursB_sound this.1, occursB_sound this.2⟩

/-- The moments of the samples, seen on 2019-03-15 at 14:00. -/
def sampleMoments : List (Text × DateTime) :=
  [(txt!"now", DateTime.mk 2019 3 15 14 0 0), (txt!"today", ⟨2019, 3, 15, 0, 0, 0⟩), (txt!"tonight", ⟨2019, 3, 15, 22, 0, 0⟩), (txt!"tomorrow", ⟨2019, 3, 16, 0, 0, 0⟩), (txt!"yesterday", ⟨2019, 3, 14, 14, 0, 0⟩)]

/-- **C98: the conditions are met** in ordinary texts with three days or more. -/
theorem c98_conditions_are_met_joined : ∀ z ∈ manyJoined, match z with
    | ((p, v1, a, v2, s), t, u) =>
      mainRun (Rt.usual 0) sortKeep (p ++ v1 ++ a ++ v2 ++ s) afternoonRef = .ok (foundLine ++ t.format ++ txt!" - " ++ (if instant t ≤ instant u then u else t).format) := by
  have hck : ∀ z ∈ manyJoined, match z with
    | ((p, v1, a, v2, s), t, u) => manyDaysChecks p v1 a v2 s = true ∧ (∀ y ∈ [(toLower v1, t), (toLower v2, u)], y ∈ sampleMoments) ∧
        (∃ k ∈ joinWords, k <:+: toLower a) ∧ (p ++ v1 ++ a ++ v2 ++ s).length < 4294967296 := by decide +kernel
  rintro ⟨⟨p, v1, a, v2, s⟩, t, u⟩ hz
  obtain ⟨h1, h2, h3, h4⟩ := hck _ hz
  obtain ⟨a1, a2, a3, a4, a5⟩ := manyDaysChecks_sound h1
  obtain ⟨d1, d2⟩ := sample_moments (h2 (toLower v1, t) (by simp))
  obtain ⟨d3, d4⟩ := sample_moments (h2 (toLower v2, u) (by simp))
  exact c98_first_two_days_are_a_range _ usual_defined _ sortKeep_sorts _ _ t u afternoonRef_reads (by unfold DateTime.Valid; decide) (by decide) (by decide) p v1 a v2 s d1 d2 d3 d4 a1 a2 a3 a4 a5 h4 h3

theorem c98_conditions_are_met_separate : ∀ z ∈ manySeparate, match z with
    | ((p, v1, a, v2, s), t, _) => mainRun (Rt.usual 0) sortKeep (p ++ v1 ++ a ++ v2 ++ s) afternoonRef = .ok (foundLine ++ t.format) := by
  have hck : ∀ z ∈ manySeparate, match z with
    | ((p, v1, a, v2, s), t, u) => manyDaysChecks p v1 a v2 s = true ∧ (∀ y ∈ [(toLower v1, t), (toLower v2, u)], y ∈ sampleMoments) ∧
        (∀ k ∈ joinWords, ¬ k <:+: toLower a) ∧ (p ++ v1 ++ a ++ v2 ++ s).length < 4294967296 := by decide +kernel
  rintro ⟨⟨p, v1, a, v2, s⟩, t, u⟩ hz
  obtain ⟨h1, h2, h3, h4⟩ := hck _ hz
  obtain ⟨a1, a2, a3, a4, a5⟩ := manyDaysChecks_sound h1
  obtain ⟨d1, d2⟩ := sample_moments (h2 (toLower v1, t) (by simp))
  obtain ⟨d3, d4⟩ := sample_moments (h2 (toLower v2, u) (by simp))
  exact c98_first_of_the_days_is_printed _ usual_defined _ sortKeep_sorts _ _ t u afternoonRef_reads (by unfold DateTime.Valid; decide) (by decide) (by decide) p v1 a v2 s d1 d2 d3 d4 a1 a2 a3 a4 a5 h4 h3

/-- `Tomorrow, yesterday, or now.`: no range word follows the first day. -/
theorem c98_conditions_are_met_first : mainRun (Rt.usual 0) sortKeep txt!"Tomorrow, yesterday, or now." afternoonRef = .ok (foundLine ++ (DateTime.mk 2019 3 16 0 0 0).format) := by
  have hck : (!(txt!", yesterday, or now." : Text).head?.any isWordB && (dateWordChecks txt!"Tomorrow, yesterday, or now." nearDays).all id) = true ∧
      ∀ k ∈ joinWords, ¬ k <:+: toLower txt!", yesterday, or now." := by decide +kernel
  obtain ⟨h, hj⟩ := hck
  rw [Bool.and_eq_true] at h
  obtain ⟨d1, d2⟩ := sample_moments (w := toLower txt!"Tomorrow") (z := ⟨2019, 3, 16, 0, 0, 0⟩) (by decide)
  exact c98_first_day_is_printed _ usual_defined _ sortKeep_sorts _ _ _ afternoonRef_reads (by unfold DateTime.Valid; decide) (by decide) (by decide) [] txt!"Tomorrow" txt!", yesterday, or now." d1 d2
    ⟨by simp, fun c hc => by cases hc; rw [wordChar_iff]; decide⟩ (dateWordChecks_sound h.2) (fun w hw ⟨a, b, e, _⟩ => by
      have := (nearDays_word w hw).1
      have := congrArg List.length e
      simp only [toLower, List.map_nil, List.length_nil, List.length_append] at this
      exact (nearDays_word w hw).1 (List.eq_nil_of_length_eq_zero (by omega))) (by decide) hj

/-- **C98: the conditions are needed.** With a clock time among the days, or letters beside the words, something else is printed. -/
theorem c98_conditions_are_needed :
    mainRun (Rt.usual 0) sortKeep txt!"from today at 9 to tomorrow, not yesterday" afternoonRef ≠
      .ok (foundLine ++ (DateTime.mk 2019 3 15 0 0 0).format ++ txt!" - " ++ (DateTime.mk 2019 3 16 0 0 0).format) ∧
    mainRun (Rt.usual 0) sortKeep txt!"today_or_tomorrow, tonight" afternoonRef = .ok (foundLine ++ (DateTime.mk 2019 3 15 22 0 0).format) := by
  decide +kernel

end Chrono.Props
