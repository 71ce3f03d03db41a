import Verif.Props.P78_ManyMonths
/-!
# C100: days and months, any number of each, in any text
-/
namespace Chrono.Props
open Chrono Chrono.Spec Chrono.Boost

/-- The words for days and the names of months. -/
def daysAndMonths : List Text := nearDays ++ monthForms

theorem days_no_months : ∀ w ∈ nearDays, w ∉ monthForms := by decide

/-- A month that stands in a text does so before, at or after a word that is known to stand in it. -/
theorem word_place {T p w s A k S : Text} (e : T = p ++ w ++ s) (e' : T = A ++ k ++ S) (w1 : w ≠ []) (w2 : ∀ c ∈ w, isWordB c = true) (k1 : k ≠ []) (k2 : ∀ c ∈ k, isWordB c = true)
    (hps : StandsApart p s) (hAS : StandsApart A S) (hp : ¬ WholeWord k p) : (A = p ∧ k = w) ∨ p.length + w.length < A.length := by
  have at1 := wordAt_of w1 w2 hps.1 hps.2
  have at2 := wordAt_of k1 k2 hAS.1 hAS.2
  have ew := e.symm.trans e'
  rw [← ew] at at2
  rcases at1.cases at2 with hlt | ⟨hlo, hhi⟩ | hgt
  · exfalso
    obtain ⟨d, hd⟩ : A ++ k <+: p := by
      refine List.prefix_of_prefix_length_le (l₃ := p ++ w ++ s) ⟨_, ew.symm⟩ ⟨w ++ s, by simp⟩ ?_
      rw [List.length_append]; omega
    refine hp ⟨A, d, hd.symm, fun _ => hAS.1, fun _ c hc => hAS.2 c ?_⟩
    rw [← hd] at ew
    simp only [List.append_assoc, List.append_cancel_left_eq] at ew
    rw [← ew, List.head?_append, hc]; rfl
  · left
    have hl : A.length = p.length := by omega
    simp only [List.append_assoc] at ew
    obtain ⟨e1, e2⟩ := List.append_inj ew hl.symm
    obtain ⟨e3, -⟩ := List.append_inj e2 (by omega)
    exact ⟨e1.symm, e3.symm⟩
  · exact .inr hgt

/-- Both kinds of mention are dates. -/
def IsDay (r : PResult) : Prop := (∃ z : DateTime, z.Valid ∧ Reads r.startDate z) ∧ isTimeOnly r = false

theorem isDay_noPair {r s : PResult} (hr : IsDay r) (hs : IsDay s) : ¬ DateTimePair r s := by
  have nt : ∀ {r : PResult}, IsDay r → ¬ TimeOnly r := by
    intro r h
    rw [← timeOnly_iff, h.2]; decide
  rintro (⟨-, h⟩ | ⟨-, h⟩)
  · exact nt hs h
  · exact nt hr h

theorem days_months_mentions {rt : Rt} {ref : PTime} {X : Text} (hn : NoDateWordsBut daysAndMonths X) {ds ms : List PResult} (h : ParserReturns rt ref X casualDateParser ds)
    (h' : ParserReturns rt ref X monthNameParser ms) : AllReturn rt ref X ∧ ∀ y, Mention rt ref X y ↔ y ∈ ds ∨ y ∈ ms := by
  have hf := hn.toFewDateWords
  have a := no_numbers hn
  have b := no_slashes hf
  have quiet : ∀ {P : Parser} {r : Re}, P.pattern = some r → r.search (toLower X) = none → ParserReturns rt ref X P [] := by
    intro P r hr hn
    refine silent_returns ?_
    unfold silent
    rw [hr]
    simp only [hn, Option.isNone_none]
  have all : ∀ P ∈ mainParsers, ParserReturns rt ref X P [] ∨ P = casualDateParser ∨ P = monthNameParser := by
    intro P hPm
    simp only [mainParsers, List.mem_cons, List.not_mem_nil, or_false] at hPm
    rcases hPm with rfl | rfl | rfl | rfl | rfl | rfl | rfl | rfl | rfl | rfl | rfl | rfl
    · exact .inl (quiet casualTime_pattern (no_casualTime hf (by decide)))
    · exact .inl (quiet deadline_pattern (no_deadline_search (hf.deadlines (by decide))))
    · exact .inl (silent_returns (by unfold silent; rw [dayOfWeek_pattern]))
    · exact .inr (.inl rfl)
    · exact .inl (quiet middleEndian_pattern (a _ (by simp)))
    · exact .inl (quiet timeLater_pattern (b _ (by simp)))
    · exact .inr (.inr rfl)
    · exact .inl (quiet timeAgo_pattern (b _ (by simp)))
    · exact .inl (quiet timeExpr_pattern (a _ (by simp)))
    · exact .inl (quiet iso_pattern (a _ (by simp)))
    · exact .inl (quiet holiday_pattern (no_holiday hf (by decide)))
    · exact .inl (quiet week_pattern (no_week_search (hf.weeks (by decide))))
  refine ⟨fun P hP => ?_, fun y => ⟨?_, ?_⟩⟩
  · rcases all P hP with h1 | rfl | rfl
    exacts [⟨_, h1⟩, ⟨_, h⟩, ⟨_, h'⟩]
  · rintro ⟨P, hP, rs', h1, h2⟩
    rcases all P hP with h3 | rfl | rfl
    · rw [parserReturns_unique h1 h3] at h2; cases h2
    · rw [parserReturns_unique h1 h] at h2; exact .inl h2
    · rw [parserReturns_unique h1 h'] at h2; exact .inr h2
  · rintro (hy | hy)
    · exact ⟨casualDateParser, by simp [mainParsers], ds, h, hy⟩
    · exact ⟨monthNameParser, by simp [mainParsers], ms, h', hy⟩

/-- If the first match begins at `N` or later, so do all mentions. -/
theorem months_from {rt : Rt} {ref : PTime} {x : DateTime} (hx : RefReads ref x) (hy1 : 1401 ≤ x.year) (hy2 : x.year ≤ 9998) {T : Text} (hT : LowerBytes T)
    (hlen : T.length < 4294967296) (hmay : ¬ txt!"may." <:+: T) {k : Nat} {g : Globals} {o : Out (List PResult × Globals)} (h : Scan rt monthNameParser Ast.monthName T ref k g o)
    (hk : k ≤ T.length) {N : Nat} (hN : ∀ mt, Ast.monthName.search (T.drop k) = some mt → N ≤ k + mt.start) : ∃ rs g', o = .ok (rs, g') ∧ ∀ y ∈ rs, N ≤ y.index ∧ IsMonth y := by
  obtain ⟨rs, g', rfl, hall⟩ := months_scan hx hy1 hy2 hT hlen hmay h hk
  refine ⟨rs, g', rfl, fun y hy => ⟨?_, (hall y hy).2⟩⟩
  generalize ho : Out.ok (rs, g') = o at h
  have hmay' : ¬ txt!"may." <:+: T.drop k := fun hi => hmay (hi.trans (List.drop_suffix _ _).isInfix)
  cases h with
  | done h =>
    simp only [Out.ok.injEq, Prod.mk.injEq] at ho
    rw [ho.1] at hy; cases hy
  | @fail _ _ mt hs hx' =>
    obtain ⟨A, w, xd, gp, hmm⟩ := month_at (hT.drop k) hs
    have hp := match_pos monthName_min hs
    rw [List.length_drop] at hp
    obtain ⟨r, t, x1, -⟩ := month_extract (rt := rt) (tx := T.drop k) hx hy1 hy2 hmm hmay' (idx := k + mt.start) (by omega)
    exact absurd (x1 _) (hx' _)
  | @step _ _ mt res g2 out hs hx' hrest =>
    obtain ⟨A, w, xd, gp, hmm⟩ := month_at (hT.drop k) hs
    have hp := match_pos monthName_min hs
    rw [List.length_drop] at hp
    obtain ⟨r, t, x1, -, x3, -⟩ := month_extract (rt := rt) (tx := T.drop k) hx hy1 hy2 hmm hmay' (idx := k + mt.start) (by omega)
    rw [x1] at hx'
    simp only [Out.ok.injEq, Prod.mk.injEq] at hx'
    obtain ⟨rfl, rfl⟩ := hx'
    obtain ⟨rs2, g3, rfl, hall2⟩ := months_scan hx hy1 hy2 hT hlen hmay hrest (by omega)
    simp only [Out.bind_ok, Out.ok.injEq, Prod.mk.injEq] at ho
    have hst := hN mt hs
    rw [ho.1] at hy
    split at hy
    · rcases List.mem_cons.1 hy with rfl | hy
      · rw [x3]; exact hst
      · have := (hall2 y hy).1; omega
    · have := (hall2 y hy).1; omega

theorem days_from {rt : Rt} {ref : PTime} {x : DateTime} (hx : RefReads ref x) (hv : x.Valid) (hy1 : 1400 < x.year) (hy2 : x.year < 9999) {T : Text} (hTl : toLower T = T)
    (hlen : T.length < 4294967296) (hlast : NoLastNight T) {k : Nat} {g : Globals} {o : Out (List PResult × Globals)} (h : Scan rt casualDateParser Ast.casualDate T ref k g o)
    (hb : Begun T k) (hk : k ≤ T.length) {N : Nat} (hN : ∀ mt, Ast.casualDate.search (T.drop k) = some mt → N ≤ k + mt.start) : ∃ rs g', o = .ok (rs, g') ∧ ∀ y ∈ rs, N ≤ y.index ∧ IsMoment y := by
  obtain ⟨rs, g', rfl, hall⟩ := days_scan hx hv hy1 hy2 hTl hlen hlast h hb hk
  refine ⟨rs, g', rfl, fun y hy => ⟨?_, (hall y hy).2⟩⟩
  generalize ho : Out.ok (rs, g') = o at h
  have ext : ∀ {mt : Match}, Ast.casualDate.search (T.drop k) = some mt → ∃ r : PResult, (∀ g, casualDateParser.extract rt g (T.drop k) mt ref (k + mt.start) = .ok (r, g)) ∧ r.copy.index = k + mt.start := by
    intro mt hm
    have hRl := drop_lower hTl k
    obtain ⟨w, hw, b, hu, hbl, hwb⟩ := casualDate_any hRl (begun_lastNight hb hlast) hm
    obtain ⟨z, hz, hzv⟩ := moment_exists hv hy1 hy2 hw
    have hlow : toLower (w ++ b) = w ++ b := by rw [← hu]; exact lower_of_infix (t := T.drop k) (by rw [hRl]; exact str_infix hm 0)
    have hp := match_pos casualDate_min hm
    rw [List.length_drop] at hp
    obtain ⟨r, x1, -, x3, -⟩ := day_result (rt := rt) (tx := T.drop k) hx hz hzv hbl hwb hu hlow (idx := k + mt.start) (by omega)
    exact ⟨r, x1, x3⟩
  cases h with
  | done h =>
    simp only [Out.ok.injEq, Prod.mk.injEq] at ho
    rw [ho.1] at hy; cases hy
  | fail hs hx' =>
    obtain ⟨r, x1, -⟩ := ext hs
    exact absurd (x1 _) (hx' _)
  | @step _ _ mt res g2 out hs hx' hrest =>
    have hp := match_pos casualDate_min hs
    rw [List.length_drop] at hp
    obtain ⟨r, x1, x3⟩ := ext hs
    rw [x1] at hx'
    simp only [Out.ok.injEq, Prod.mk.injEq] at hx'
    obtain ⟨rfl, rfl⟩ := hx'
    obtain ⟨rs2, g3, rfl, hall2⟩ := days_scan hx hv hy1 hy2 hTl hlen hlast hrest (begun_next hb hs) (by omega)
    simp only [Out.bind_ok, Out.ok.injEq, Prod.mk.injEq] at ho
    have hst := hN mt hs
    rw [ho.1] at hy
    split at hy
    · rcases List.mem_cons.1 hy with rfl | hy
      · rw [x3]; exact hst
      · have := (hall2 y hy).1; omega
    · have := (hall2 y hy).1; omega

/-! ## What follows the first word -/

/-- A month right behind: nothing but blanks before it. -/
def MonthBehind (s : Text) : Prop := ∃ g k u, Blanks g ∧ k ∈ monthForms ∧ s = g ++ k ++ u ∧ ∀ c, u.head? = some c → ¬ WordChar c

theorem months_word : ∀ k ∈ daysAndMonths, k ≠ [] ∧ ∀ c ∈ k, isWordB c = true := by decide +kernel

/-- Months behind a day begin behind the blanks that belong to the day. -/
theorem months_behind {T p w b R : Text} (hT : LowerBytes T) (e : T = p ++ w ++ (b ++ R)) (hw : w ∈ nearDays) (hps : StandsApart p (b ++ R)) (hp : ∀ k ∈ monthForms, ¬ WholeWord k p) (hb : Blanks b)
    (hs : ¬ MonthBehind (b ++ R)) {mt : Match} (hm : Ast.monthName.search T = some mt) : p.length + w.length + b.length ≤ mt.start := by
  obtain ⟨A, k, xd, gp, hmm⟩ := month_at hT hm
  obtain ⟨z, hz, hzp⟩ := hmm.lead
  have hk := hmm.form
  obtain ⟨w1, w2⟩ := months_word w (List.mem_append_left _ hw)
  obtain ⟨k1, k2⟩ := months_word k (List.mem_append_right _ hk)
  have hAS : StandsApart A (xd ++ gp ++ T.drop mt.stop) := by
    refine ⟨hmm.before, fun c hc => ?_⟩
    rw [List.head?_append] at hc
    rcases hmm.dot with h | ⟨h, -⟩
    · rw [h, List.nil_append] at hc
      cases hg : gp with
      | nil => rw [hg] at hc; exact hmm.after c (by simpa using hc)
      | cons y g =>
        rw [hg] at hc; cases hc
        exact blank_notWord (hmm.blanks _ (by rw [hg]; simp))
    · rw [h] at hc; cases hc
      unfold WordChar; omega
  have hpl : p.length + w.length < A.length := by
    rcases word_place e hmm.text w1 w2 k1 k2 hps hAS (hp k hk) with ⟨-, h⟩ | h
    · exact absurd (h ▸ hk) (days_no_months w hw)
    · exact h
  have eT := e.symm.trans hmm.text
  rcases Nat.lt_or_ge mt.start (p.length + w.length + b.length) with hlt | hge
  · exfalso
    obtain ⟨A2, rfl⟩ : p ++ w <+: A := by
      refine List.prefix_of_prefix_length_le (l₃ := T) ⟨_, e.symm⟩ ⟨k ++ (xd ++ gp ++ T.drop mt.stop), by rw [← List.append_assoc]; exact hmm.text.symm⟩ ?_
      rw [List.length_append]; omega
    have e2 : b ++ R = A2 ++ (k ++ (xd ++ gp ++ T.drop mt.stop)) := by
      simp only [List.append_assoc, List.append_cancel_left_eq] at eT
      rw [eT]; simp
    refine hs ⟨A2, k, _, fun c hc => ?_, hk, by rw [e2]; simp, hAS.2⟩
    obtain ⟨i, hi, rfl⟩ := List.mem_iff_getElem.1 hc
    rcases Nat.lt_or_ge i b.length with hib | hib
    · have : (b ++ R)[i]? = (A2 ++ (k ++ (xd ++ gp ++ T.drop mt.stop)))[i]? := by rw [e2]
      rw [List.getElem?_append_left hib, List.getElem?_append_left hi, List.getElem?_eq_getElem hib, List.getElem?_eq_getElem hi] at this
      rw [← Option.some.inj this]
      exact hb _ (List.getElem_mem _)
    · rcases lead_at (W := k ++ (xd ++ gp ++ T.drop mt.stop)) (by rw [← List.append_assoc]; exact hmm.text) hmm.start hz hzp with ⟨h0, -⟩ | ⟨A', d, b', hA', hl, hb', -⟩
      · exact absurd (List.append_eq_nil_iff.1 (List.append_eq_nil_iff.1 h0).1).2 w1
      · have : (p ++ w ++ A2)[p.length + w.length + i]? = (A' ++ d :: b')[p.length + w.length + i]? := by rw [hA']
        rw [List.getElem?_append_right (by rw [List.length_append]; omega), List.getElem?_append_right (by omega)] at this
        rw [List.length_append, Nat.add_sub_cancel_left, List.getElem?_eq_getElem hi] at this
        obtain ⟨j, hj⟩ : ∃ j, p.length + w.length + i - A'.length = j + 1 := ⟨p.length + w.length + i - A'.length - 1, by omega⟩
        rw [hj, List.getElem?_cons_succ] at this
        exact hb' _ (List.mem_of_getElem? this.symm)
  · exact hge

/-- Days behind a month begin behind all that belongs to the month. -/
theorem days_behind {T p w xd gp R : Text} (hTl : toLower T = T) (hlast : NoLastNight T) (e : T = p ++ w ++ (xd ++ gp ++ R)) (hw : w ∈ monthForms) (hps : StandsApart p (xd ++ gp ++ R))
    (hp : ∀ k ∈ nearDays, ¬ WholeWord k p) (hxd : xd = [] ∨ xd = txt!".") (hgp : Blanks gp) {mt : Match} (hm : Ast.casualDate.search T = some mt) : p.length + (w ++ xd ++ gp).length ≤ mt.start := by
  obtain ⟨k, hk, b, hu, hb, -⟩ := casualDate_any hTl hlast hm
  obtain ⟨body, he, -⟩ := casualDate_shape
  have hfr : framed Ast.casualDate = true := by rw [he]; rfl
  obtain ⟨e1, e2⟩ := framed_word hfr hm
  obtain ⟨-, -, hsplit⟩ := framed_edges hfr hm
  obtain ⟨w1, w2⟩ := months_word w (List.mem_append_right _ hw)
  obtain ⟨k1, k2⟩ := months_word k (List.mem_append_left _ hk)
  have ok := Re.search_ok hm
  obtain ⟨-, hle, -, -⟩ := Re.search_some hm
  have hpos := match_pos casualDate_min hm
  have hAl : (T.take mt.start).length = mt.start := by rw [List.length_take]; omega
  have hA : ∀ c, (T.take mt.start).getLast? = some c → ¬ WordChar c := by
    obtain ⟨c, k', rfl⟩ := List.exists_cons_of_ne_nil k1
    exact e1 c (k' ++ b) (by rw [hu]; rfl) (k2 c (by simp))
  have hS : ∀ c, (b ++ T.drop mt.stop).head? = some c → ¬ WordChar c := by
    cases hb0 : b with
    | nil =>
      refine e2 (k.getLast k1) ?_ (k2 _ (List.getLast_mem _))
      rw [hu, hb0, List.append_nil, List.getLast?_eq_some_getLast k1]
    | cons y b' =>
      intro c hc
      cases hc
      exact blank_notWord (hb _ (by rw [hb0]; simp))
  have eT : T = T.take mt.start ++ k ++ (b ++ T.drop mt.stop) := by
    conv => lhs; rw [hsplit, hu]
    simp
  generalize T.take mt.start = A at *
  generalize b ++ T.drop mt.stop = S at *
  have hpl : p.length + w.length < A.length := by
    rcases word_place e eT w1 w2 k1 k2 hps ⟨hA, hS⟩ (hp k hk) with ⟨-, h⟩ | h
    · exact absurd (h ▸ hw) (days_no_months k hk)
    · exact h
  rcases Nat.lt_or_ge mt.start (p.length + (w ++ xd ++ gp).length) with hlt | hge
  · exfalso
    simp only [List.length_append] at hlt
    have hg : (p ++ w ++ (xd ++ gp ++ R))[A.length]? = (A ++ k ++ S)[A.length]? := by rw [← e, eT]
    obtain ⟨c, k', rfl⟩ := List.exists_cons_of_ne_nil k1
    rw [List.append_assoc A, List.getElem?_append_right (Nat.le_refl _), Nat.sub_self, List.getElem?_append_right (by rw [List.length_append]; omega),
      List.getElem?_append_left (by simp only [List.length_append]; omega)] at hg
    have hc : c ∈ xd ++ gp := List.mem_of_getElem? (by rw [hg]; rfl)
    have hcw := k2 c (by simp)
    rw [← wordChar_iff] at hcw
    rcases List.mem_append.1 hc with h | h
    · rcases hxd with rfl | rfl
      · cases h
      · rw [List.mem_singleton.1 h] at hcw
        unfold WordChar at hcw; omega
    · exact blank_notWord (hgp c h) hcw
  · exact hge

/-! ## The theorems -/

/-- **C100 (a day first).** Any number of days and months in any text: if a day is the first of them, no month stands right behind it, and no `and`, `to`, `through` or `-` follows it anywhere, it is printed alone. -/
theorem c100_first_day_is_printed (rt : Rt) (hrt : Rt.Defined rt) (sort : List PResult → List PResult) (hs : Sorts sort) (ref : PTime) (x t : DateTime) (hx : RefReads ref x) (hv : x.Valid)
    (hy1 : 1401 ≤ x.year) (hy2 : x.year ≤ 9998) (p v s : Text) (h1 : MomentNamed x (toLower v) t) (ht : t.Valid) (hps : StandsApart p s) (hn : NoDateWordsBut daysAndMonths (p ++ v ++ s))
    (hb : ∀ c ∈ p ++ v ++ s, c < 256) (hmay : ¬ txt!"may." <:+: toLower (p ++ v ++ s)) (hp : ∀ w ∈ daysAndMonths, ¬ WholeWord w (toLower p)) (hbeh : ¬ MonthBehind (toLower s))
    (hlen : (p ++ v ++ s).length < 4294967296) (hj : ∀ k ∈ joinWords, ¬ k <:+: toLower s) :
    mainRun rt sort (p ++ v ++ s) ref = .ok (foundLine ++ t.format) := by
  have hw := moment_near h1
  have hTl := toLower_toLower (p ++ v ++ s)
  have hT := lowerBytes_of hn.digits hb hn.backslash
  have hlen' : (toLower (p ++ v ++ s)).length < 4294967296 := by simpa [toLower] using hlen
  have hps' := standsApart_lower hps
  have e : toLower (p ++ v ++ s) = toLower p ++ toLower v ++ toLower s := by simp [toLower_append]
  have hsc := execute_scan (rt := rt) hrt.stale casualDate_pattern casualDate_min integerWords (p ++ v ++ s) ref
  have hsm := execute_scan (rt := rt) hrt.stale monthName_pattern monthName_min integerWords (p ++ v ++ s) ref
  obtain ⟨r, ds, g3, b, n, g2, ho, hbl, hS, -, hst, hnn, -, -, -, hr, hm, hall⟩ := days_next hx hv (by omega) (by omega) hTl hlen' hn.lastNight hsc (begun_zero _) (Nat.zero_le _) h1 ht
    (P := toLower p) (S := toLower s) (by rw [List.drop_zero, e]) hps' (fun w hw => hp w (List.mem_append_left _ hw))
  obtain ⟨ms, g4, ho', hall'⟩ := months_from hx hy1 hy2 hT hlen' hmay hsm (Nat.zero_le _) (N := n) fun mt hmt => by
    rw [List.drop_zero] at hmt
    have := months_behind (R := (toLower (p ++ v ++ s)).drop n) hT (by rw [← hS]; exact e) hw (by rw [← hS]; exact hps') (fun k hk => hp k (List.mem_append_right _ hk)) hbl (by rw [← hS]; exact hbeh) hmt
    omega
  have hret : ParserReturns rt ref (p ++ v ++ s) casualDateParser (r :: ds) := ⟨g3, ho⟩
  have hret' : ParserReturns rt ref (p ++ v ++ s) monthNameParser ms := ⟨g4, ho'⟩
  obtain ⟨har, hmen⟩ := days_months_mentions hn hret hret'
  have bef : ∀ y, Mention rt ref (p ++ v ++ s) y → y = r ∨ Before r y := by
    intro y hy
    rcases (hmen y).1 hy with hy | hy
    · rcases List.mem_cons.1 hy with rfl | hy
      exacts [.inl rfl, .inr (hall y hy).1]
    · right; unfold Before; rw [hst]; exact (hall' y hy).1
  have day : ∀ y, Mention rt ref (p ++ v ++ s) y → IsDay y := by
    intro y hy
    rcases (hmen y).1 hy with hy | hy
    · rcases List.mem_cons.1 hy with rfl | hy
      exacts [⟨hm.1, hm.2.1⟩, ⟨(hall y hy).2.1, (hall y hy).2.2.1⟩]
    · exact ⟨(hall' y hy).2.1, (hall' y hy).2.2.1⟩
  refine c95_first_of_dates_is_printed hrt hs hlen har ((hmen r).2 (.inl (by simp))) (moment_noZone hm) (fun y hy => ?_) (c08_toDate_prints_start r t ht hr hm.2.2.1 (moment_tag hm (by decide)))
    (fun y hy => (day y hy).1) (fun y z hy hz _ => isDay_noPair (day y hy) (day z hz))
  rcases bef y hy with rfl | hy'
  · exact .inl rfl
  · refine .inr (.inr ⟨hy', .inl ⟨isDay_noPair ⟨hm.1, hm.2.1⟩ (day y hy), .inr ?_⟩⟩)
    rintro ⟨k, hk, hi⟩
    refine hj k hk (hi.trans ?_)
    unfold slice
    rw [hst, hS]
    exact (List.take_prefix _ _).isInfix.trans ⟨b, [], by simp⟩

/-- **C100 (a month first).** If a month is the first of them and no range word follows it anywhere, it is printed alone, whatever stands right behind it. -/
theorem c100_first_month_is_printed (rt : Rt) (hrt : Rt.Defined rt) (sort : List PResult → List PResult) (hs : Sorts sort) (ref : PTime) (x : DateTime) (hx : RefReads ref x) (hv : x.Valid)
    (hy1 : 1401 ≤ x.year) (hy2 : x.year ≤ 9998) (p v s : Text) (hw : toLower v ∈ monthForms) (hps : StandsApart p s) (hn : NoDateWordsBut daysAndMonths (p ++ v ++ s))
    (hb : ∀ c ∈ p ++ v ++ s, c < 256) (hmay : ¬ txt!"may." <:+: toLower (p ++ v ++ s)) (hp : ∀ w ∈ daysAndMonths, ¬ WholeWord w (toLower p)) (hfew : FewBlanks p)
    (hlen : (p ++ v ++ s).length < 4294967296) (hj : ∀ k ∈ joinWords, ¬ k <:+: toLower s) :
    ∃ t, MonthNamed x (toLower v) t ∧ mainRun rt sort (p ++ v ++ s) ref = .ok (foundLine ++ t.format) := by
  have hTl := toLower_toLower (p ++ v ++ s)
  have hT := lowerBytes_of hn.digits hb hn.backslash
  have hlen' : (toLower (p ++ v ++ s)).length < 4294967296 := by simpa [toLower] using hlen
  have hps' := standsApart_lower hps
  have hfew' := fewBlanks_lower hfew
  have e : toLower (p ++ v ++ s) = toLower p ++ toLower v ++ toLower s := by simp [toLower_append]
  have hsc := execute_scan (rt := rt) hrt.stale casualDate_pattern casualDate_min integerWords (p ++ v ++ s) ref
  have hsm := execute_scan (rt := rt) hrt.stale monthName_pattern monthName_min integerWords (p ++ v ++ s) ref
  obtain ⟨q, hq, s1, r1, p1, e1⟩ := monthLead_found (T := toLower (p ++ v ++ s)) (P := toLower p) (R := toLower v ++ toLower s) (by rw [e]; simp)
    (fun c hc => hT.digits c (by rw [e]; simp [hc])) (fun c hc => hT.bytes c (by rw [e]; simp [hc])) hps'.1 hfew'.1
  obtain ⟨r, ms, g3, xd, gp, mt, n, g2, t, ho, hmm, -, hS, hi, hst, hn', hnl, -, hmn, htv, hr, hm, hall⟩ := months_next hx hy1 hy2 hT hlen' hmay hsm (Nat.zero_le _) hw
    (P := toLower p) (S := toLower s) (by rw [List.drop_zero, e]) hps' (fun w hw => hp w (List.mem_append_right _ hw)) hq ⟨s1, by rw [List.drop_zero]; exact r1, p1, e1⟩
  have hxd : xd = [] ∨ xd = txt!"." := hmm.dot.imp id (·.1)
  obtain ⟨ds, g4, ho', hall'⟩ := days_from hx hv (by omega) (by omega) hTl hlen' hn.lastNight hsc (begun_zero _) (Nat.zero_le _) (N := n) fun mt hmt => by
    rw [List.drop_zero] at hmt
    have := days_behind (R := (toLower (p ++ v ++ s)).drop n) hTl hn.lastNight (by rw [← hS]; exact e) hw (by rw [← hS]; exact hps') (fun k hk => hp k (List.mem_append_left _ hk)) hxd hmm.blanks hmt
    omega
  have hshort := hmm.short hfew'
  have hsta := hmm.start
  have h3 : 3 ≤ (toLower v).length := by
    have : ∀ w ∈ monthForms, 3 ≤ w.length := by decide
    exact this _ hw
  have hL : (toLower v).length ≤ (toLower v ++ xd ++ gp).length := by simp only [List.length_append]; omega
  have hret : ParserReturns rt ref (p ++ v ++ s) monthNameParser (r :: ms) := ⟨g3, ho⟩
  have hret' : ParserReturns rt ref (p ++ v ++ s) casualDateParser ds := ⟨g4, ho'⟩
  obtain ⟨har, hmen⟩ := days_months_mentions hn hret' hret
  have bef : ∀ y, Mention rt ref (p ++ v ++ s) y → y = r ∨ Before r y := by
    intro y hy
    rcases (hmen y).1 hy with hy | hy
    · right; unfold Before; have := (hall' y hy).1; rw [hst]; omega
    · rcases List.mem_cons.1 hy with rfl | hy
      exacts [.inl rfl, .inr (hall y hy).2.1]
  have day : ∀ y, Mention rt ref (p ++ v ++ s) y → IsDay y := by
    intro y hy
    rcases (hmen y).1 hy with hy | hy
    · exact ⟨(hall' y hy).2.1, (hall' y hy).2.2.1⟩
    · rcases List.mem_cons.1 hy with rfl | hy
      exacts [⟨hm.1, hm.2.1⟩, ⟨(hall y hy).2.2.1, (hall y hy).2.2.2.1⟩]
  refine ⟨t, hmn, c95_first_of_dates_is_printed hrt hs hlen har ((hmen r).2 (.inr (by simp))) (isMonth_noZone hm) (fun y hy => ?_) (c08_toDate_prints_start r t htv hr hm.2.2.1 (isMonth_tag hm (by decide)))
    (fun y hy => (day y hy).1) (fun y z hy hz _ => isDay_noPair (day y hy) (day z hz))⟩
  rcases bef y hy with rfl | hy'
  · exact .inl rfl
  · refine .inr (.inr ⟨hy', .inl ⟨isDay_noPair ⟨hm.1, hm.2.1⟩ (day y hy), .inr ?_⟩⟩)
    rintro ⟨k, hk, hi⟩
    refine hj k hk (infix_after_month (j := mt.start + (toLower v ++ xd ++ gp).length - (toLower p).length) hk hw (by omega) hps'.2 (hi.trans ?_))
    unfold slice
    rw [e, hst, show toLower p ++ toLower v ++ toLower s = toLower p ++ (toLower v ++ toLower s) by simp, List.drop_append, List.drop_eq_nil_of_le (by omega), List.nil_append, Nat.zero_add]
    exact (List.take_prefix _ _).isInfix

/-! ## The conditions can be met, and are needed -/

/-- The conditions, checked. -/
def daysMonthsChecks (p v s : Text) : Bool :=
  !p.getLast?.any isWordB && !s.head?.any isWordB && (dateWordChecks (p ++ v ++ s) daysAndMonths).all id && ((p ++ v ++ s).all fun z => decide (z < 256)) &&
    (daysAndMonths.all fun w => !occursB true w true (toLower p))

theorem daysMonthsChecks_sound {p v s : Text} (h : daysMonthsChecks p v s = true) : StandsApart p s ∧ NoDateWordsBut daysAndMonths (p ++ v ++ s) ∧ (∀ z ∈ p ++ v ++ s, z < 256) ∧
    ∀ w ∈ daysAndMonths, ¬ WholeWord w (toLower p) := by
  unfold daysMonthsChecks at h
  rw [Bool.and_eq_true, Bool.and_eq_true, Bool.and_eq_true, Bool.and_eq_true] at h
  obtain ⟨⟨⟨⟨h1, h2⟩, h3⟩, h4⟩, h5⟩ := h
  have edge : ∀ {o : Option Nat}, (!o.any isWordB) = true → ∀ c, o = some c → ¬ WordChar c := by
    rintro o ho c rfl
    rw [wordChar_iff]; simpa using ho
  exact ⟨⟨edge h1, edge h2⟩, dateWordChecks_sound h3, fun z hz => by simpa using List.all_eq_true.1 h4 z hz, fun w hw => occursB_sound (by simpa using List.all_eq_true.1 h5 w hw)⟩

/-- Where no month stands right behind: the first character that is no blank begins none. -/
theorem no_month_behind {s : Text} (h : ∀ k ∈ monthForms, ¬ k <+: s.dropWhile isSpaceB) : ¬ MonthBehind s := by
  rintro ⟨g, k, u, hg, hk, rfl, -⟩
  refine h k hk ⟨u, ?_⟩
  obtain ⟨k1, k2⟩ := months_word k (List.mem_append_right _ hk)
  obtain ⟨c, k', rfl⟩ := List.exists_cons_of_ne_nil k1
  have hc : isSpaceB c = false := by
    cases hh : isSpaceB c with
    | false => rfl
    | true => exact absurd (wordChar_iff.2 (k2 c (by simp))) (blank_notWord (isSpace_blank hh))
  rw [List.append_assoc, List.dropWhile_append_of_pos (fun z hz => blank_isSpace (hg z hz))]
  simp [hc]

/-- Samples with a day first: what stands before it, the day, what follows; the moment of the day. -/
def daysFirst : List ((Text × Text × Text) × DateTime) :=
  [((txt!"", txt!"today", txt!", in march or april; not yesterday"), ⟨2019, 3, 15, 0, 0, 0⟩),
   ((txt!"(Is it ", txt!"TONIGHT", txt!"?), or in  Sept. or Dec or now"), ⟨2019, 3, 15, 22, 0, 0⟩),
   ((txt!"see you ", txt!"tomorrow", txt!"."), ⟨2019, 3, 16, 0, 0, 0⟩)]

/-- Samples with a month first. -/
def monthsFirst : List (Text × Text × Text) :=
  [(txt!"In ", txt!"May", txt!", tmr or now."), (txt!"", txt!"sept", txt!". yesterday"), (txt!"Her birthday is in ", txt!"DECEMBER", txt!"; not yesterday, nor in June, nor now!")]

theorem c100_conditions_are_met_day : ∀ z ∈ daysFirst, match z with
    | ((p, v, s), t) => mainRun (Rt.usual 0) sortKeep (p ++ v ++ s) afternoonRef = .ok (foundLine ++ t.format) := by
  have hck : ∀ z ∈ daysFirst, match z with
    | ((p, v, s), t) => daysMonthsChecks p v s = true ∧ (toLower v, t) ∈ sampleMoments ∧ ¬ txt!"may." <:+: toLower (p ++ v ++ s) ∧ (∀ k ∈ monthForms, ¬ k <+: (toLower s).dropWhile isSpaceB) ∧
        (∀ k ∈ joinWords, ¬ k <:+: toLower s) ∧ (p ++ v ++ s).length < 4294967296 := by decide +kernel
  rintro ⟨⟨p, v, s⟩, t⟩ hz
  obtain ⟨h1, h2, h3, h4, h5, h6⟩ := hck _ hz
  obtain ⟨a1, a2, a3, a4⟩ := daysMonthsChecks_sound h1
  obtain ⟨d1, d2⟩ := sample_moments h2
  exact c100_first_day_is_printed _ usual_defined _ sortKeep_sorts _ _ t afternoonRef_reads (by unfold DateTime.Valid; decide) (by decide) (by decide) p v s d1 d2 a1 a2 a3 h3 a4 (no_month_behind h4) h6 h5

theorem c100_conditions_are_met_month : ∀ z ∈ monthsFirst, match z with
    | (p, v, s) => ∃ t, MonthNamed ⟨2019, 3, 15, 14, 0, 0⟩ (toLower v) t ∧ mainRun (Rt.usual 0) sortKeep (p ++ v ++ s) afternoonRef = .ok (foundLine ++ t.format) := by
  have hck : ∀ z ∈ monthsFirst, match z with
    | (p, v, s) => daysMonthsChecks p v s = true ∧ toLower v ∈ monthForms ∧ ¬ txt!"may." <:+: toLower (p ++ v ++ s) ∧ fewBlanksB p = true ∧
        (∀ k ∈ joinWords, ¬ k <:+: toLower s) ∧ (p ++ v ++ s).length < 4294967296 := by decide +kernel
  rintro ⟨p, v, s⟩ hz
  obtain ⟨h1, h2, h3, h4, h5, h6⟩ := hck _ hz
  obtain ⟨a1, a2, a3, a4⟩ := daysMonthsChecks_sound h1
  exact c100_first_month_is_printed _ usual_defined _ sortKeep_sorts _ _ afternoonRef_reads (by unfold DateTime.Valid; decide) (by decide) (by decide) p v s h2 a1 a2 a3 h3 a4 (fewBlanksB_sound h4) h6 h5

/-- **C100: the conditions are needed.** A month right behind a day is printed in its stead; so is a day after a month that has a single blank before it. -/
theorem c100_conditions_are_needed :
    mainRun (Rt.usual 0) sortKeep txt!"today september" afternoonRef = .ok (foundLine ++ (DateTime.mk 2019 9 1 0 0 0).format) ∧
    mainRun (Rt.usual 0) sortKeep txt!" june, not yesterday" afternoonRef = .ok (foundLine ++ (DateTime.mk 2019 3 14 14 0 0).format) ∧
    mainRun (Rt.usual 0) sortKeep txt!"today to the end of april" afternoonRef = .ok (foundLine ++ (DateTime.mk 2019 3 15 0 0 0).format ++ txt!" - " ++ (DateTime.mk 2019 4 1 0 0 0).format) := by
  decide +kernel

end Chrono.Props
