import Verif.Props.P72_TimeAndDay
/-!
# C92, C93: a part of the day with a time or with a day, in any text
-/
namespace Chrono.Props
open Chrono Chrono.Spec Chrono.Boost

/-- The same as `prints_date_time`, for a time of day that could pass for a date, too. -/
theorem prints_either {rt : Rt} {sort : List PResult → List PResult} {text : Text} {ref : PTime} {a b : PResult}
    (hna : NonEmpty a) (hnb : NonEmpty b) (hia : Inside (toLower text) a) (hib : Inside (toLower text) b) (hab : Before a b)
    (hrun : mainRun rt sort text ref = (do
      let rs ← tzRefine [a, b] (toLower text)
      let rs ← mdtRefine rs (toLower text)
      let rs ← mdrRefine rs (toLower text)
      printResult rs))
    (hza : ∀ abbr off, a.getTag .timeExpression = true → ¬ FollowedByZone (toLower text) a abbr off)
    (hzb : ∀ abbr off, b.getTag .timeExpression = true → ¬ FollowedByZone (toLower text) b abbr off)
    (htail : ∀ w ∈ rangeWords, ¬ w <:+: (toLower text).drop (stop b))
    (hxa : a.getTag .extractTZ = false) (hxb : b.getTag .extractTZ = false) (hea : a.hasEnd = false) (heb : b.hasEnd = false)
    {d t : PResult} (hdt : d = a ∧ t = b ∨ d = b ∧ t = a ∧ (isDateOnly t && isTimeOnly d) = false) (hd : NoTime d.startDate) (ht : isTimeOnly t = true)
    {y mo da h mi s : Nat} (hdate : DateIs d.startDate (y, mo, da)) (htime : TimeIs t.startDate h mi s)
    (hv : (DateTime.mk y mo da h mi s).Valid) :
    mainRun rt sort text ref = .ok (foundLine ++ (DateTime.mk y mo da h mi s).format) := by
  obtain ⟨a', b', e, ⟨a1, a2, a3, a4, a5, a6⟩, ⟨b1, b2, b3, b4, b5, b6⟩⟩ := tz_two hza hzb
  have hsa : stop a' = stop a := by unfold stop PResult.textLength; rw [a1, a2]
  have hsb : stop b' = stop b := by unfold stop PResult.textLength; rw [b1, b2]
  have hna' : NonEmpty a' := by unfold NonEmpty PResult.textLength at *; rw [a2]; exact hna
  have hnb' : NonEmpty b' := by unfold NonEmpty PResult.textLength at *; rw [b2]; exact hnb
  have hia' : Inside (toLower text) a' := by unfold Inside at *; rw [hsa]; exact hia
  have hib' : Inside (toLower text) b' := by unfold Inside at *; rw [hsb]; exact hib
  have hab' : Before a' b' := by unfold Before at *; rw [hsa, b1]; exact hab
  obtain ⟨D, T, hDT, D1, D2, D3, T1, T2, hDi, hTi, hDtag, hTtag⟩ : ∃ D T : PResult, (D = a' ∧ T = b' ∨ D = b' ∧ T = a' ∧ (isDateOnly T && isTimeOnly D) = false) ∧
      D.startDate = d.startDate ∧ D.hasEnd = false ∧ D.getTag .extractTZ = false ∧ T.startDate = t.startDate ∧ T.hasEnd = false ∧ Inside (toLower text) D ∧
      Inside (toLower text) T ∧ D.getTag .extractTZ = false ∧ T.getTag .extractTZ = false := by
    rcases hdt with ⟨rfl, rfl⟩ | ⟨rfl, rfl, hn⟩
    · exact ⟨a', b', .inl ⟨rfl, rfl⟩, a3, a4.trans hea, (a6 _).trans hxa, b3, b4.trans heb, hia', hib', (a6 _).trans hxa, (b6 _).trans hxb⟩
    · exact ⟨b', a', .inr ⟨rfl, rfl, by unfold isDateOnly isTimeOnly at *; rw [a3, b3]; exact hn⟩, b3, b4.trans heb, (b6 _).trans hxb, a3, a4.trans hea, hib', hia', (b6 _).trans hxb, (a6 _).trans hxa⟩
  obtain ⟨m, hm, -⟩ := mdtMerge_end (text := toLower text) (d := D) (t := T) hDi (e? := none) (by unfold mergedEnd; rw [D2, T2]; rfl)
  obtain ⟨m1, m2, m3, m4, -⟩ := mdtMerge_ok hDi hTi hm
  have mtag := mdtMerge_tags hm
  have hD : isDateOnly D = true := by
    unfold isDateOnly; rw [D1]; unfold NoTime at hd; rw [hd.1]; rfl
  have hT : isTimeOnly T = true := by unfold isTimeOnly at *; rw [T1]; exact ht
  have hable : mdtAble (toLower text) a' b' = .ok true := by rw [mdtAble_eq, if_pos hia'.1]
  have hstep : mdtStep (toLower text) a' b' = .ok (some m) := by
    unfold mdtStep
    rcases hDT with ⟨rfl, rfl⟩ | ⟨rfl, rfl, hn⟩
    · simp [hD, hT, hable, hm]
    · rw [hn]
      simp [hD, hT, hable, hm]
  have hmdt : mdtRefine [a', b'] (toLower text) = .ok [m, b'] := by
    show mdtLoop (toLower text) b' [a', b'] = _
    unfold mdtLoop
    rw [hstep]
    simp only [Out.bind_ok]
    unfold mdtLoop
    rw [show ([] : List PResult).headD b' = b' from rfl, nonEmpty_not_isEmpty hnb']
    rfl
  have hmin : m.index = a'.index := by
    unfold Before stop at hab'
    rw [m2]
    rcases hDT with ⟨rfl, rfl⟩ | ⟨rfl, rfl, -⟩ <;> omega
  have hmst : stop m = stop b' := by
    unfold Before at hab'
    unfold NonEmpty at hnb'
    have : b'.index ≤ stop b' := by unfold stop; omega
    rw [m3]
    rcases hDT with ⟨rfl, rfl⟩ | ⟨rfl, rfl, -⟩ <;> omega
  have hnm : NonEmpty m := by
    unfold Before at hab'
    unfold NonEmpty at *
    unfold stop at *
    omega
  have him : Inside (toLower text) m := by
    unfold Inside at *
    rw [hmst]; exact hib'
  have hmdr := mdr_covered hnm him hmst (by rw [hsb]; exact htail)
  obtain ⟨g1, g2, g3⟩ := hd
  obtain ⟨k1, k2, k3, k4⟩ := mergeComponent_get d.startDate t.startDate g1 g2 g3
  obtain ⟨x1, x2, x3⟩ := hdate
  obtain ⟨t1, t2, t3⟩ := htime
  have hr : Reads m.startDate ⟨y, mo, da, h, mi, s⟩ := by
    rw [m1, D1, T1]
    exact ⟨(k1 _ (by decide) (by decide) (by decide)).trans x1, (k1 _ (by decide) (by decide) (by decide)).trans x2,
      (k1 _ (by decide) (by decide) (by decide)).trans x3, k2.trans t1, k3.trans t2, k4.trans t3⟩
  have hx : m.getTag .extractTZ = false := by
    cases h : m.getTag .extractTZ with
    | false => rfl
    | true =>
      rcases mtag _ h with h | h | h
      · cases h
      · rw [hDtag] at h; cases h
      · rw [hTtag] at h; cases h
  rw [hrun, e]
  simp only [Out.bind_ok]
  rw [hmdt]
  simp only [Out.bind_ok]
  rw [hmdr]
  simp only [Out.bind_ok]
  have := c08_toDate_prints_start m _ hv hr (by rw [m4, D2, T2]; rfl) hx
  simp [printResult, this, foundLine]


theorem partHours_parts : ∀ z ∈ partHours, z.1 ∈ partsOfDay ∧ z.1 ∈ [txt!"morning", txt!"afternoon", txt!"evening", txt!"night"] := by decide

theorem partComps_ok {ref : PTime} {x : DateTime} (hx : RefReads ref x) {w : Text} {h : Nat} (hw : (w, h) ∈ partHours) :
    ∃ c, partComps w ref = .ok c ∧ DateIs c x.date ∧ TimeIs c h x.minute 0 ∧ ∀ k, (c.known k).1 = false := by
  obtain ⟨e1, e2, e3, e4⟩ := Date.year_of_ymd hx.date
  have hmn := hx.minutes
  obtain ⟨wd, e5⟩ : ∃ wd, ref.date.dayOfWeek = .ok wd := ⟨_, e4⟩
  simp only [partHours, List.mem_cons, Prod.mk.injEq, List.not_mem_nil, or_false] at hw
  rcases hw with ⟨rfl, rfl⟩ | ⟨rfl, rfl⟩ | ⟨rfl, rfl⟩ | ⟨rfl, rfl⟩ <;>
    · unfold partComps
      rw [e1, e2, e3, e5]
      simp only [Out.bind_ok, Out.pure_eq]
      repeat (first | rw [if_pos (by decide)] | rw [if_neg (by decide)])
      refine ⟨_, rfl, ⟨rfl, rfl, rfl⟩, ⟨rfl, ?_, rfl⟩, fun k => by cases k <;> rfl⟩
      rw [← hmn]; rfl

/-- The name of a part of the day in a text gives one mention, with the date of the reference time and the hour. -/
theorem part_mention {rt : Rt} (hrt : Rt.Defined rt) {ref : PTime} {x : DateTime} (hx : RefReads ref x) {text P S w : Text} {ex : List Text} {h : Nat}
    (hw : (w, h) ∈ partHours) (hT : toLower text = P ++ w ++ S) (hps : StandsApart P S)
    (hf : FewDateWords ex text) (hex : ∀ k ∈ partsOfDay, k ∈ ex → k = w) (hP : ¬ WholeWord w P) (hS : ¬ WholeWord w S) (hlen : text.length < 4294967296) :
    ∃ r pre P', ParserReturns rt ref text casualTimeParser [r] ∧ P = P' ++ pre ∧ (Blanks pre ∨ ∃ b, Blanks b ∧ pre = txt!"this" ++ b) ∧ r.index = P'.length ∧
      stop r = P.length + w.length ∧ (toLower text).drop (stop r) = S ∧
      DateIs r.startDate x.date ∧ TimeIs r.startDate h x.minute 0 ∧ NoTime r.startDate ∧ isTimeOnly r = true ∧ isDateOnly r = true ∧ r.hasEnd = false ∧
      ∀ t, r.getTag t = true → t = .casualTime := by
  have hw' := (partHours_parts _ hw).1
  obtain ⟨c, hcm, c1, c2, c3⟩ := partComps_ok hx hw
  obtain ⟨mt, pre, hm, h4, hu, hpre, hP', hS', hn⟩ := casualTime_found hw' hT hps hf hex hP hS
  have hxx := part_extract (rt := rt) (g := integerWords) (tx := toLower text) (ref := ref) (idx := mt.start) hw' h4
  rw [hcm, Out.bind_ok] at hxx
  have hok := Re.search_ok hm
  have l0 := hok.len
  have l1 := hok.le
  have l2 := hok.stop_le
  have hTl := congrArg List.length hT
  have hSl := congrArg List.length hS'
  have hul := congrArg List.length hu
  simp only [List.length_append, List.length_drop] at hTl hSl hul
  unfold Match.length at l0
  have hlt : (toLower text).length = text.length := by simp [toLower]
  have hidx : PResult.toU32 mt.start = mt.start := by unfold PResult.toU32; omega
  obtain ⟨r, hr⟩ : ∃ r, r = ({ PResult.mk' ref mt.start (mt.str 0) with startDate := c } : PResult).setTag .casualTime := ⟨_, rfl⟩
  rw [← hr] at hxx
  have r1 : r.index = mt.start := by rw [hr]; exact hidx
  have r2 : r.text = mt.str 0 := by rw [hr]; rfl
  have r3 : r.startDate = c := by rw [hr]; rfl
  have r4 : r.hasEnd = false := by rw [hr]; rfl
  have hs : stop r.copy = mt.stop := by
    unfold stop PResult.textLength
    rw [copy_index, copy_text, r1, r2]
    omega
  have hcert : ∀ k, c.certain k = false := fun k => c3 _
  refine ⟨r.copy, pre, _, ⟨_, execute_one hrt.stale casualTime_pattern casualTime_min hm (pureExtract_ok hxx) ?_ hn⟩, hP', hpre, ?_, ?_, ?_, ?_, ?_, ?_, ?_, ?_, r4, ?_⟩
  · refine hasPossibleDates_of_year ?_
    rw [r3, c1.1]
    have := hx.valid.1.1
    simp only [DateTime.date]
    omega
  · rw [copy_index, r1, List.length_take]; omega
  · rw [hs]; omega
  · rw [hs]; exact hS'
  · show DateIs r.startDate _
    rw [r3]; exact c1
  · show TimeIs r.startDate _ _ _
    rw [r3]; exact c2
  · show NoTime r.startDate
    rw [r3]; exact ⟨hcert _, c3 _, c3 _⟩
  · show (!r.startDate.certain .month && !r.startDate.certain .mday) = true
    rw [r3, hcert, hcert]; rfl
  · show (!r.startDate.certain .hour) = true
    rw [r3, hcert]; rfl
  · intro t ht
    have : r.getTag t = true := ht
    rw [hr] at this
    by_contra hne
    unfold PResult.getTag PResult.setTag at this
    simp [hne, PResult.mk'] at this

/-! ## A time and a part of the day -/

theorem part_notMonth : ∀ w ∈ partsOfDay, ∀ k ∈ monthForms, k ∉ [w] := by decide

theorem part_both {w : Text} {h : Nat} (hw : (w, h) ∈ partHours) :
    w ∈ [txt!"today", txt!"tonight", txt!"tomorrow", txt!"tmr", txt!"yesterday", txt!"morning", txt!"afternoon", txt!"evening", txt!"night"] :=
  List.mem_append_right [txt!"today", txt!"tonight", txt!"tomorrow", txt!"tmr", txt!"yesterday"] (partHours_parts _ hw).2

theorem part_notLoose {w : Text} {h : Nat} (hw : (w, h) ∈ partHours) : w ∉ looseDays := by
  have key : ∀ z ∈ partHours, z.1 ∉ looseDays := by decide
  exact key _ hw

/-- What the mention of a part of the day takes from the text before its name is shorter than that text, if the text is not blank and does not begin inside a word. -/
theorem part_lead {A a P' pre : Text} (e : A ++ a = P' ++ pre) (hpre : Blanks pre ∨ ∃ b, Blanks b ∧ pre = txt!"this" ++ b)
    (hh : ∀ c, a.head? = some c → ¬ WordChar c) (hb : ¬ Blanks a) : A.length < P'.length := by
  by_contra hlt
  have hlt : P'.length ≤ A.length := by omega
  have hsuf : a <:+ pre := by
    rcases List.append_eq_append_iff.1 e with ⟨t, h1, h2⟩ | ⟨t, h1, h2⟩
    · have := congrArg List.length h1
      simp only [List.length_append] at this
      have : t = [] := List.length_eq_zero_iff.1 (by omega)
      rw [h2, this]; simp
    · rw [h2]; exact List.suffix_append _ _
  rcases hpre with h | ⟨b, h, rfl⟩
  · exact hb fun c hc => h c (hsuf.subset hc)
  · obtain ⟨t, ht⟩ := hsuf
    rcases List.append_eq_append_iff.1 ht with ⟨z, h1, h2⟩ | ⟨z, h1, h2⟩
    · cases z with
      | nil => exact hb fun c hc => h c (by rw [h2] at hc; simpa using hc)
      | cons c z =>
        refine hh c (by rw [h2]; rfl) ?_
        have hc : c ∈ txt!"this" := by rw [h1]; simp
        have key : ∀ c ∈ txt!"this", isWordB c = true := by decide
        exact wordChar_iff.2 (key c hc)
    · exact hb fun c hc => h c (by rw [h2]; exact List.mem_append_right _ hc)

/-- The words that make a range do not occur after the time. -/
theorem after_time {p v s D sfx : Text} {t : Tail} {ap : Option Bool} (hv : toLower v = D ++ (t.text ++ sfx)) (hne : D ≠ []) (hD : ∀ c ∈ D, isDigitB c = true)
    (hsf : HalfWritten sfx ap s) {n e : Nat} (hn : (p ++ v).length + e ≤ n + 1) (hj : ∀ k ∈ joinWords, ¬ k <:+: toLower s) :
    ∀ w ∈ rangeWords, ¬ w <:+: (toLower (p ++ v ++ s)).drop n := by
  intro k hk hi
  obtain ⟨B, c, hA, hc1⟩ := written_end (t := t) hne hD hsf
  have hcut : toLower (p ++ v ++ s) = (toLower p ++ B) ++ (c :: toLower s) := by
    rw [toLower_append, toLower_append, hv, hA]; simp
  have hBl := congrArg List.length hA
  have hvl := congrArg List.length hv
  simp only [List.length_append, List.length_cons, List.length_nil] at hBl hvl hn
  have hlv : (toLower v).length = v.length := by simp [toLower]
  have hlp : (toLower p).length = p.length := by simp [toLower]
  have hsuf : (toLower (p ++ v ++ s)).drop n <:+ c :: toLower s := by
    obtain ⟨m, hm⟩ : ∃ m, n = (toLower p ++ B).length + m := ⟨n - (toLower p ++ B).length, by simp only [List.length_append]; omega⟩
    rw [hcut, hm, ← List.drop_drop, List.drop_left]
    exact List.drop_suffix _ _
  rcases List.infix_cons_iff.1 (hi.trans hsuf.isInfix) with h | h
  · have hh : k.head? = some c := by
      obtain ⟨z, hz⟩ := h
      cases k with
      | nil => simp [rangeWords] at hk
      | cons k0 ks => simp only [List.cons_append, List.cons.injEq] at hz; rw [hz.1]; rfl
    have key : ∀ k ∈ rangeWords, ∀ c ∈ k.head?, isDigitB c = false ∧ c ∉ [58, 109, 46, 107] := by decide
    obtain ⟨k1, k2⟩ := key k hk c hh
    rcases hc1 with h | h
    · rw [h] at k1; cases k1
    · exact k2 h
  · exact hj k hk h

/-- **C92 (the time first).** A clock time, and later in the text `morning`, `afternoon`, `evening` or `night`, each in any letter case, with any text before, between and after them
(`Call me at 9 in the evening.`): if a blank or nothing stands before the time, if no letter, digit or `_` stands after it or beside the part of the day, if not just blanks
stand between them, if there are no other digits, no other words for dates and times and no name of a month right before the time, and if `and`, `to`, `through` and `-` do not
occur after the part of the day, then what the program prints is that time, today: the part of the day makes no difference, not even for a time without am and pm. -/
theorem c92_time_then_part_in_any_text (rt : Rt) (hrt : Rt.Defined rt) (sort : List PResult → List PResult) (hs : Sorts sort) (ref : PTime) (x : DateTime) (hx : RefReads ref x)
    (short : Bool) (h : Nat) (t : Tail) (sfx : Text) (ap : Option Bool) (p v a u q : Text) (hv : toLower v = clockText short h t sfx)
    (hh : h < 24) (h9 : short = true → h ≤ 9) (h12 : sfx ≠ [] → h ≤ 12) (hmi : t.minute < 60) (hsec : t.second < 60) (hsf : HalfWritten sfx ap (a ++ u ++ q))
    (hlead : ∀ c, p.getLast? = some c → Blank c) (hend : ∀ c, (a ++ u ++ q).head? = some c → ¬ WordChar c) (hp : NoDigits p) (hd : NoDigits (a ++ u ++ q))
    (hb : ∀ c ∈ a ++ u ++ q, c < 256) (hp' : Nat) (hpart : (toLower u, hp') ∈ partHours) (hap : StandsApart a q) (hbl : ¬ Blanks a)
    (hw : FewDateWords [toLower u] (p ++ v ++ (a ++ u ++ q))) (h1 : ¬ WholeWord (toLower u) (toLower (p ++ v ++ a))) (h2 : ¬ WholeWord (toLower u) (toLower q))
    (hm : ¬ EndsWithMonth p) (hj : ∀ k ∈ joinWords, ¬ k <:+: toLower q) (hlen : (p ++ v ++ (a ++ u ++ q)).length < 4294967296) :
    mainRun rt sort (p ++ v ++ (a ++ u ++ q)) ref = .ok (foundLine ++ (DateTime.mk x.year x.month x.day (hour24 h ap) t.minute t.second).format) := by
  obtain ⟨k1, k2, k3, k4, k5⟩ := clock_pieces (t := t) hh h9 hmi
  have hv' : toLower v = hourText short h ++ (t.text ++ sfx) := by rw [hv]; unfold clockText; simp
  obtain ⟨hwp, -⟩ := partHours_parts _ hpart
  have ha : a ≠ [] := by rintro rfl; exact hbl (by simp [Blanks])
  have hz : ¬ OnlyAZone (a ++ u ++ q) := not_only_zone (part_both hpart) rfl
  obtain ⟨hclk, hq⟩ := others_silent hv' k2 hsf hlead hp hd hw hm (part_notOther _ hwp) (part_notMonth _ hwp)
  obtain ⟨r, e, hret, r3, r4, r5, r6, r7, r8, r9, r10, r11, -, -, hzone⟩ := clock_mention hrt hx hv' k1 k2 k3 k4 k5 hh h12 hmi hsec hsf hlead hend hp hd hb hclk hz hlen
  have hT : toLower (p ++ v ++ (a ++ u ++ q)) = toLower (p ++ v ++ a) ++ toLower u ++ toLower q := by
    simp [toLower_append]
  have hst : StandsApart (toLower (p ++ v ++ a)) (toLower q) := by
    have := standsApart_lower (p := p ++ v ++ a) (s := q) ⟨fun c hc => hap.1 c ?_, hap.2⟩
    · exact this
    · rwa [List.getLast?_append_of_ne_nil _ ha] at hc
  obtain ⟨r', pre, P', hret', e1, e2, s1, s2, s3, s4, s5, s6, s7, s8, s9, s10⟩ := part_mention hrt hx hpart hT hst hw (fun k _ hk => by simpa using hk) h1 h2 hlen
  have hlow : ∀ z, toLower a = z → ∀ c, z.head? = some c → ¬ WordChar c := by
    rintro z rfl c hc
    cases a with
    | nil => exact absurd rfl ha
    | cons c0 a0 =>
      have : c = lowerB c0 := by simpa [toLower] using hc.symm
      rw [this, wordChar_lower]
      exact hend c0 rfl
  have hbl' : ¬ Blanks (toLower a) := by
    intro hb'
    refine hbl fun c hc => ?_
    have : Blank (lowerB c) := hb' _ (by simpa [toLower] using List.mem_map_of_mem (f := lowerB) hc)
    unfold Blank lowerB at *
    split at this <;> omega
  have hbef : Before r r' := by
    unfold Before
    rw [s1]
    have := part_lead (A := toLower (p ++ v)) (a := toLower a) (by rw [← e1]; simp [toLower_append]) e2 (hlow _ rfl) hbl'
    have hl : (toLower (p ++ v)).length = (p ++ v).length := by simp [toLower]
    omega
  have notag : ∀ t, t ≠ .casualTime → r'.getTag t = false := by
    intro t ht
    cases hg : r'.getTag t with
    | false => rfl
    | true => exact absurd (s10 t hg) ht
  have h24 : hour24 h ap < 24 := by
    unfold hour24
    rcases ap with _ | _ | _ <;> simp <;> omega
  obtain ⟨n1, n2, i1, i2, hrun⟩ := run_two hrt hs hlen (a := r) (b := r') ⟨timeExprParser, by simp [mainParsers], _, hret, by simp⟩
    ⟨casualTimeParser, by simp [mainParsers], _, hret', by simp⟩ hbef (by
      intro P hPm
      rcases hq P hPm with rfl | rfl | rfl | hq
      · exact ⟨_, hret, fun y hy => .inl (by simpa using hy)⟩
      · exact ⟨[], silent_returns (by unfold silent; rw [casualDate_pattern]; simp only [no_casualDate hw (parts_word _ hwp).2.2.2, Option.isNone_none]), by simp⟩
      · exact ⟨_, hret', fun y hy => .inr (.inl (by simpa using hy))⟩
      · exact ⟨[], silent_returns hq, by simp⟩)
  refine prints_either n1 n2 i1 i2 hbef hrun (fun abbr off _ => hzone abbr off) (fun abbr off ht => ?_) ?_ r8 (notag _ (by decide)) r5 s9
    (d := r') (t := r) (.inr ⟨rfl, rfl, ?_⟩) s6 r7 s4 r4 ⟨hx.valid.1, h24, hmi, hsec⟩
  · exact absurd (s10 _ ht) (by decide)
  · rw [s3]; exact hj
  · unfold isDateOnly; rw [r6]; rfl

/-- **C92 (the part of the day first).** The same for the part of the day and later the time (`This evening at 9.`), if not just a time zone follows the time and if `and`, `to`,
`through` and `-` do not occur after it. -/
theorem c92_part_then_time_in_any_text (rt : Rt) (hrt : Rt.Defined rt) (sort : List PResult → List PResult) (hs : Sorts sort) (ref : PTime) (x : DateTime) (hx : RefReads ref x)
    (short : Bool) (h : Nat) (t : Tail) (sfx : Text) (ap : Option Bool) (q u a v s : Text) (hv : toLower v = clockText short h t sfx)
    (hh : h < 24) (h9 : short = true → h ≤ 9) (h12 : sfx ≠ [] → h ≤ 12) (hmi : t.minute < 60) (hsec : t.second < 60) (hsf : HalfWritten sfx ap s)
    (hlead : ∀ c, (q ++ u ++ a).getLast? = some c → Blank c) (hend : ∀ c, s.head? = some c → ¬ WordChar c) (hp : NoDigits (q ++ u ++ a)) (hd : NoDigits s)
    (hb : ∀ c ∈ s, c < 256) (hp' : Nat) (hpart : (toLower u, hp') ∈ partHours) (hap : StandsApart q a)
    (hw : FewDateWords [toLower u] (q ++ u ++ a ++ v ++ s)) (h1 : ¬ WholeWord (toLower u) (toLower q)) (h2 : ¬ WholeWord (toLower u) (toLower (a ++ v ++ s)))
    (hm : ¬ EndsWithMonth (q ++ u ++ a)) (hz : ¬ OnlyAZone s) (hj : ∀ k ∈ joinWords, ¬ k <:+: toLower s) (hlen : (q ++ u ++ a ++ v ++ s).length < 4294967296) :
    mainRun rt sort (q ++ u ++ a ++ v ++ s) ref = .ok (foundLine ++ (DateTime.mk x.year x.month x.day (hour24 h ap) t.minute t.second).format) := by
  obtain ⟨k1, k2, k3, k4, k5⟩ := clock_pieces (t := t) hh h9 hmi
  have hv' : toLower v = hourText short h ++ (t.text ++ sfx) := by rw [hv]; unfold clockText; simp
  obtain ⟨hwp, -⟩ := partHours_parts _ hpart
  obtain ⟨w0, wall, -⟩ := parts_word _ hwp
  have ha : a ≠ [] := by
    rintro rfl
    rcases List.eq_nil_or_concat u with rfl | ⟨u', c, rfl⟩
    · exact w0 rfl
    · rw [List.concat_eq_append] at wall hlead
      have hbc := hlead c (by simp)
      refine blank_notWord hbc ?_
      rw [← wordChar_lower, wordChar_iff]
      exact wall _ (by simp [toLower])
  have hT : toLower (q ++ u ++ a ++ v ++ s) = toLower q ++ toLower u ++ toLower (a ++ v ++ s) := by
    simp [toLower_append]
  have hPl : toLower (q ++ u ++ a) = toLower q ++ toLower u ++ toLower a := by simp [toLower_append]
  have hlow : toLower (q ++ u ++ a ++ v ++ s) = toLower (q ++ u ++ a) ++ (hourText short h ++ (t.text ++ (sfx ++ toLower s))) := by
    rw [toLower_append, toLower_append, hv']; simp only [List.append_assoc]
  have hP := lower_noDigits hp
  obtain ⟨hclk, hq⟩ := others_silent hv' k2 hsf hlead hp hd hw hm (part_notOther _ hwp) (part_notMonth _ hwp)
  obtain ⟨r, e, hret, r3, r4, r5, r6, r7, r8, r9, r10, r11, r12, ⟨mt, hsr, hix, hle⟩, hzone⟩ := clock_mention hrt hx hv' k1 k2 k3 k4 k5 hh h12 hmi hsec hsf hlead hend hp hd hb hclk hz hlen
  have hst : StandsApart (toLower q) (toLower (a ++ v ++ s)) := by
    have := standsApart_lower (p := q) (s := a ++ v ++ s) ⟨hap.1, fun c hc => hap.2 c ?_⟩
    · exact this
    · cases a with
      | nil => exact absurd rfl ha
      | cons z t => exact hc
  obtain ⟨r', pre, P', hret', e1, e2, s1, s2, s3, s4, s5, s6, s7, s8, s9, s10⟩ := part_mention hrt hx hpart hT hst hw (fun k _ hk => by simpa using hk) h1 h2 hlen
  have hlp : (toLower (q ++ u ++ a)).length = (q ++ u ++ a).length := by simp [toLower]
  have hbef : Before r' r := by
    unfold Before
    obtain ⟨-, -, ⟨s', -, hpos, -, hrel⟩, -⟩ := Re.search_some hsr
    obtain ⟨A, c, k, j1, j2, j3, -, j5⟩ := clock_lead (toLower_toLower _) hlow k1 hP k2 hclk (by omega) hrel
    have hkey := lead_after (part_both hpart) (P := toLower q) (a := toLower a) (A := A) (c := c) (k := k) (b := []) (a2 := toLower a)
      (by rw [← j1, hPl]) j3 j5 (by simpa [toLower] using ha) (fun z hz => ?_) (by simp [Blanks]) rfl (.inl rfl) (fun hl => absurd hl (part_notLoose hpart))
    · rw [hix, s2, ← j2]; simpa using hkey
    · refine hst.2 z ?_
      rw [toLower_append, toLower_append]
      cases hla : toLower a with
      | nil => rw [hla] at hz; cases hz
      | cons z' t' => rw [hla] at hz; exact hz
  have notag : ∀ t, t ≠ .casualTime → r'.getTag t = false := by
    intro t ht
    cases hg : r'.getTag t with
    | false => rfl
    | true => exact absurd (s10 t hg) ht
  have h24 : hour24 h ap < 24 := by
    unfold hour24
    rcases ap with _ | _ | _ <;> simp <;> omega
  obtain ⟨n1, n2, i1, i2, hrun⟩ := run_two hrt hs hlen (a := r') (b := r) ⟨casualTimeParser, by simp [mainParsers], _, hret', by simp⟩
    ⟨timeExprParser, by simp [mainParsers], _, hret, by simp⟩ hbef (by
      intro P hPm
      rcases hq P hPm with rfl | rfl | rfl | hq
      · exact ⟨_, hret, fun y hy => .inr (.inl (by simpa using hy))⟩
      · exact ⟨[], silent_returns (by unfold silent; rw [casualDate_pattern]; simp only [no_casualDate hw (parts_word _ hwp).2.2.2, Option.isNone_none]), by simp⟩
      · exact ⟨_, hret', fun y hy => .inl (by simpa using hy)⟩
      · exact ⟨[], silent_returns hq, by simp⟩)
  refine prints_either n1 n2 i1 i2 hbef hrun (fun abbr off ht => ?_) (fun abbr off _ => hzone abbr off) (after_time hv' k1 k2 hsf r12 hj) (notag _ (by decide)) r8 s9 r5
    (d := r') (t := r) (.inl ⟨rfl, rfl⟩) s6 r7 s4 r4 ⟨hx.valid.1, h24, hmi, hsec⟩
  exact absurd (s10 _ ht) (by decide)

/-! ## A day and a part of the day -/

/-- A day and a part of it are all that the parsers find. -/
theorem day_part_run {rt : Rt} (hrt : Rt.Defined rt) {sort : List PResult → List PResult} (hs : Sorts sort) {ref : PTime} {text w w' : Text}
    (hlen : text.length < 4294967296) (hw : w ∈ nearDays) (hw' : w' ∈ partsOfDay) (hn : NoDateWordsBut [w, w'] text) {d t a b : PResult}
    (hd : ParserReturns rt ref text casualDateParser [d]) (ht : ParserReturns rt ref text casualTimeParser [t])
    (hab : Before a b) (h : a = d ∧ b = t ∨ a = t ∧ b = d) :
    NonEmpty a ∧ NonEmpty b ∧ Inside (toLower text) a ∧ Inside (toLower text) b ∧
    mainRun rt sort text ref = (do
      let rs ← tzRefine [a, b] (toLower text)
      let rs ← mdtRefine rs (toLower text)
      let rs ← mdrRefine rs (toLower text)
      printResult rs) := by
  have key : ∀ k ∈ otherKeys, k ∉ [w, w'] := by
    intro k hk hm
    simp only [List.mem_cons, List.not_mem_nil, or_false] at hm
    rcases hm with rfl | rfl
    · exact near_notOther _ hw _ hk (by simp)
    · exact part_notOther _ hw' _ hk (by simp)
  have ho := no_others hn key
  have quiet : ∀ {P : Parser} {r : Re}, P.pattern = some r → r.search (toLower text) = none → ParserReturns rt ref text P [] := by
    intro P r hr hn
    refine silent_returns ?_
    unfold silent
    rw [hr]
    simp only [hn, Option.isNone_none]
  have both : ∀ y, y = d ∨ y = t → y = a ∨ y = b := by rcases h with ⟨rfl, rfl⟩ | ⟨rfl, rfl⟩ <;> tauto
  have mem : ∀ y, y = d ∨ y = t → ∃ P ∈ mainParsers, ∃ rs, ParserReturns rt ref text P rs ∧ y ∈ rs := by
    rintro y (rfl | rfl)
    · exact ⟨casualDateParser, by simp [mainParsers], _, hd, by simp⟩
    · exact ⟨casualTimeParser, by simp [mainParsers], _, ht, by simp⟩
  refine run_two hrt hs hlen (mem a (by rcases h with ⟨rfl, rfl⟩ | ⟨rfl, rfl⟩ <;> simp)) (mem b (by rcases h with ⟨rfl, rfl⟩ | ⟨rfl, rfl⟩ <;> simp)) hab ?_
  intro P hPm
  simp only [mainParsers, List.mem_cons, List.not_mem_nil, or_false] at hPm
  rcases hPm with rfl | rfl | rfl | rfl | rfl | rfl | rfl | rfl | rfl | rfl | rfl | rfl
  · exact ⟨_, ht, fun y hy => (both y (.inr (by simpa using hy))).imp id .inl⟩
  · exact ⟨[], quiet deadline_pattern (ho _ (by simp)), by simp⟩
  · exact ⟨[], silent_returns (by unfold silent; rw [dayOfWeek_pattern]), by simp⟩
  · exact ⟨_, hd, fun y hy => (both y (.inl (by simpa using hy))).imp id .inl⟩
  · exact ⟨[], quiet middleEndian_pattern (ho _ (by simp)), by simp⟩
  · exact ⟨[], quiet timeLater_pattern (ho _ (by simp)), by simp⟩
  · exact ⟨[], quiet monthName_pattern (ho _ (by simp)), by simp⟩
  · exact ⟨[], quiet timeAgo_pattern (ho _ (by simp)), by simp⟩
  · exact ⟨[], quiet timeExpr_pattern (ho _ (by simp)), by simp⟩
  · exact ⟨[], quiet iso_pattern (ho _ (by simp)), by simp⟩
  · exact ⟨[], quiet holiday_pattern (ho _ (by simp)), by simp⟩
  · exact ⟨[], quiet week_pattern (ho _ (by simp)), by simp⟩

theorem day_part_only {w w' : Text} {n : Nat} {x : DateTime} {d : Nat × Nat × Nat} (hd : DayNamed x w d) (hp : (w', n) ∈ partHours) :
    (∀ k ∈ nearDays, k ∈ [w, w'] → k = w) ∧ ∀ k ∈ partsOfDay, k ∈ [w, w'] → k = w' := by
  constructor
  · intro k hk hm
    simp only [List.mem_cons, List.not_mem_nil, or_false] at hm
    rcases hm with rfl | rfl
    · rfl
    · exact absurd (List.mem_singleton.2 rfl) ((parts_word _ (partHours_parts _ hp).1).2.2.2 _ hk)
  · intro k hk hm
    simp only [List.mem_cons, List.not_mem_nil, or_false] at hm
    rcases hm with rfl | rfl
    · exact absurd (List.mem_singleton.2 rfl) (near_notPart _ (named_near hd) _ hk)
    · rfl

/-- **C93 (the part of the day first).** `morning`, `afternoon`, `evening` or `night`, and later in the text `today`, `tonight`, `tomorrow`, `tmr` or `yesterday`, each in any letter
case, with any text before, between and after them (`In the evening, I hope, tomorrow.`): if no letter, digit or `_` stands beside them, if there are no digits and no other words
for dates and times, and if `and`, `to`, `through` and `-` do not occur after the second, then what the program prints is that day, at the hour the part of the day stands for, with
the minutes of the reference time. -/
theorem c93_part_then_day_in_any_text (rt : Rt) (hrt : Rt.Defined rt) (sort : List PResult → List PResult) (hs : Sorts sort) (ref : PTime) (x : DateTime) (hx : RefReads ref x)
    (p u a v s : Text) (h : Nat) (hpart : (toLower u, h) ∈ partHours) (y m d : Nat) (hday : DayNamed x (toLower v) (y, m, d)) (hc : CivilInRange y m d)
    (hps : StandsApart p a) (hvs : StandsApart a s) (ha : a ≠ []) (hn : NoDateWordsBut [toLower v, toLower u] (p ++ u ++ a ++ v ++ s))
    (h1 : ¬ WholeWord (toLower u) (toLower p)) (h2 : ¬ WholeWord (toLower u) (toLower (a ++ v ++ s)))
    (h3 : ¬ WholeWord (toLower v) (toLower (p ++ u ++ a))) (h4 : ¬ WholeWord (toLower v) (toLower s))
    (hj : ∀ k ∈ joinWords, ¬ k <:+: toLower s) (hlen : (p ++ u ++ a ++ v ++ s).length < 4294967296) :
    mainRun rt sort (p ++ u ++ a ++ v ++ s) ref = .ok (foundLine ++ (DateTime.mk y m d h x.minute 0).format) := by
  obtain ⟨o1, o2⟩ := day_part_only hday hpart
  have hT1 : toLower (p ++ u ++ a ++ v ++ s) = toLower p ++ toLower u ++ toLower (a ++ v ++ s) := by simp [toLower_append]
  have hT2 : toLower (p ++ u ++ a ++ v ++ s) = toLower (p ++ u ++ a) ++ toLower v ++ toLower s := by simp [toLower_append]
  have hs1 : StandsApart (toLower p) (toLower (a ++ v ++ s)) := standsApart_lower ⟨hps.1, fun c hc => hps.2 c (by
    cases a with
    | nil => exact absurd rfl ha
    | cons z t => exact hc)⟩
  have hs2 : StandsApart (toLower (p ++ u ++ a)) (toLower s) := standsApart_lower ⟨fun c hc => hvs.1 c (by
    rwa [List.getLast?_append_of_ne_nil _ ha] at hc), hvs.2⟩
  obtain ⟨t, pre, P', hret', e1, e2, s1, s2, s3, s4, s5, s6, s7, s8, s9, s10⟩ := part_mention hrt hx hpart hT1 hs1 hn.toFewDateWords o2 h1 h2 hlen
  obtain ⟨r, hret, r1, ⟨b, hbl, -, r2, r3⟩, r4, r5, r6, r7, r8⟩ := day_mention hrt hx hday hc hT2 hs2 hn.toFewDateWords o1 h3 h4 hlen
  have hbef : Before t r := by
    unfold Before
    rw [s2, r1]
    have : (toLower (p ++ u ++ a)).length = (toLower p).length + (toLower u).length + (toLower a).length := by simp only [toLower_append, List.length_append]
    omega
  obtain ⟨n1, n2, i1, i2, hrun⟩ := day_part_run hrt hs hlen (named_near hday) (partHours_parts _ hpart).1 hn hret hret' hbef (.inr ⟨rfl, rfl⟩)
  have nt : ∀ k, k ≠ .casualTime → t.getTag k = false := fun k hk => by
    cases hg : t.getTag k with
    | false => rfl
    | true => exact absurd (s10 k hg) hk
  have nr : ∀ k, k ≠ .casualDate → r.getTag k = false := fun k hk => by
    cases hg : r.getTag k with
    | false => rfl
    | true => exact absurd (r8 k hg) hk
  have hh : h < 24 := by
    have key : ∀ z ∈ partHours, z.2 < 24 := by decide
    exact key _ hpart
  refine prints_either n1 n2 i1 i2 hbef hrun (fun abbr off ht => ?_) (fun abbr off ht => ?_) ?_ (nt _ (by decide)) (nr _ (by decide)) s9 r7
    (d := r) (t := t) (.inr ⟨rfl, rfl, ?_⟩) r5 s7 r4 s5 ⟨hc, hh, hx.valid.2.2.1, (by decide : (0 : Nat) < 60)⟩
  · exact absurd (s10 _ ht) (by decide)
  · exact absurd (r8 _ ht) (by decide)
  · intro k hk hi
    refine hj k hk (hi.trans ?_)
    rw [r2]
    exact ⟨b, [], by simp⟩
  · rw [r6]; simp

/-- The mention of the part of the day begins after that of the day. -/
theorem part_after {P w a P' pre b a2 : Text}
    (hw : w ∈ [txt!"today", txt!"tonight", txt!"tomorrow", txt!"tmr", txt!"yesterday"])
    (e : P ++ w ++ a = P' ++ pre) (hpre : Blanks pre ∨ ∃ b, Blanks b ∧ pre = txt!"this" ++ b)
    (hh : ∀ c, a.head? = some c → ¬ WordChar c) (hb : Blanks b) (hab : a = b ++ a2) (hl : b = [] ∨ ¬ Blanks a) :
    P.length + w.length + b.length ≤ P'.length := by
  have e' := congrArg List.length e
  have lab := congrArg List.length hab
  simp only [List.length_append] at e' lab
  by_cases hba : Blanks a
  · have hb0 : b = [] := hl.resolve_right (fun h => h hba)
    subst hb0
    by_contra hlt
    simp only [List.length_nil, Nat.add_zero] at hlt lab
    have key : ∀ w ∈ [txt!"today", txt!"tonight", txt!"tomorrow", txt!"tmr", txt!"yesterday"], w ≠ [] ∧ (∀ c ∈ w, isWordB c = true) ∧ ¬ w <:+ txt!"this" ∧ ¬ txt!"this" <:+ w := by decide
    obtain ⟨w0, wall, ws1, ws2⟩ := key w hw
    have hlast : ∀ z, (P ++ w).getLast? = some z → ¬ Blank z := by
      intro z hz hbz
      rw [List.getLast?_append_of_ne_nil _ w0] at hz
      exact blank_notWord hbz (wordChar_iff.2 (wall z (List.mem_of_getLast? hz)))
    rcases hpre with h | ⟨b', h, rfl⟩
    · rcases List.append_eq_append_iff.1 e with ⟨t, h1, h2⟩ | ⟨t, h1, h2⟩
      · have l1 := congrArg List.length h1
        simp only [List.length_append] at l1
        omega
      · rcases List.eq_nil_or_concat t with rfl | ⟨t', c, rfl⟩
        · have l1 := congrArg List.length h1
          simp at l1
          omega
        · rw [List.concat_eq_append] at h1 h2
          exact hlast c (by rw [h1]; simp) (h c (by rw [h2]; simp))
    · have e2 : P ++ w = P' ++ txt!"this" := by
        refine trim_eq (g := a) (h := b') (by rw [e]; simp) hba h hlast fun z hz => ?_
        rw [List.getLast?_append_of_ne_nil _ (by decide)] at hz
        have : z = 115 := by simpa using hz.symm
        rw [this]; unfold Blank; decide
      have s1 : w <:+ P ++ w := List.suffix_append _ _
      have s2 : txt!"this" <:+ P ++ w := by rw [e2]; exact List.suffix_append _ _
      rcases Nat.le_total w.length (txt!"this").length with h | h
      · exact ws1 (List.suffix_of_suffix_length_le s1 s2 h)
      · exact ws2 (List.suffix_of_suffix_length_le s2 s1 h)
  · have hlt := part_lead e hpre hh hba
    rw [List.length_append] at hlt
    by_contra hc
    have e3 : (P ++ w ++ b) ++ a2 = P' ++ pre := by rw [← e, hab]; simp
    rcases List.append_eq_append_iff.1 e3 with ⟨t, h1, h2⟩ | ⟨t, h1, h2⟩
    · have l1 := congrArg List.length h1
      simp only [List.length_append] at l1
      omega
    · cases t with
      | nil =>
        have l1 := congrArg List.length h1
        simp at l1
        omega
      | cons c t =>
        have hcb : c ∈ b := by
          have hsuf : c :: t <:+ b := by
            have s1 : c :: t <:+ P ++ w ++ b := by rw [h1]; exact List.suffix_append _ _
            refine List.suffix_of_suffix_length_le s1 (List.suffix_append _ _) ?_
            have l1 := congrArg List.length h1
            simp only [List.length_append] at l1
            omega
          exact hsuf.subset (by simp)
        rcases hpre with h | ⟨b', h, rfl⟩
        · refine hba fun z hz => ?_
          rw [hab] at hz
          rcases List.mem_append.1 hz with hz | hz
          · exact hb z hz
          · exact h z (by rw [h2]; simp [hz])
        · have : c = 116 := by
            have := congrArg List.head? h2
            simpa using this.symm
          have h5 := hb c hcb
          rw [this] at h5
          unfold Blank at h5
          omega

/-- **C93 (the day first).** The same for the day and later the part of the day (`Tomorrow, in the evening.`), if not just blanks stand between `tomorrow`, `tmr` or `yesterday` and
the part of the day. -/
theorem c93_day_then_part_in_any_text (rt : Rt) (hrt : Rt.Defined rt) (sort : List PResult → List PResult) (hs : Sorts sort) (ref : PTime) (x : DateTime) (hx : RefReads ref x)
    (p v a u s : Text) (h : Nat) (hpart : (toLower u, h) ∈ partHours) (y m d : Nat) (hday : DayNamed x (toLower v) (y, m, d)) (hc : CivilInRange y m d)
    (hps : StandsApart p a) (hvs : StandsApart a s) (ha : a ≠ []) (hn : NoDateWordsBut [toLower v, toLower u] (p ++ v ++ a ++ u ++ s))
    (h1 : ¬ WholeWord (toLower v) (toLower p)) (h2 : ¬ WholeWord (toLower v) (toLower (a ++ u ++ s)))
    (h3 : ¬ WholeWord (toLower u) (toLower (p ++ v ++ a))) (h4 : ¬ WholeWord (toLower u) (toLower s))
    (hb : toLower v ∈ [txt!"tomorrow", txt!"tmr", txt!"yesterday"] → ¬ Blanks a)
    (hj : ∀ k ∈ joinWords, ¬ k <:+: toLower s) (hlen : (p ++ v ++ a ++ u ++ s).length < 4294967296) :
    mainRun rt sort (p ++ v ++ a ++ u ++ s) ref = .ok (foundLine ++ (DateTime.mk y m d h x.minute 0).format) := by
  obtain ⟨o1, o2⟩ := day_part_only hday hpart
  have hT1 : toLower (p ++ v ++ a ++ u ++ s) = toLower p ++ toLower v ++ toLower (a ++ u ++ s) := by simp [toLower_append]
  have hT2 : toLower (p ++ v ++ a ++ u ++ s) = toLower (p ++ v ++ a) ++ toLower u ++ toLower s := by simp [toLower_append]
  have hs1 : StandsApart (toLower p) (toLower (a ++ u ++ s)) := standsApart_lower ⟨hps.1, fun c hc => hps.2 c (by
    cases a with
    | nil => exact absurd rfl ha
    | cons z t => exact hc)⟩
  have hs2 : StandsApart (toLower (p ++ v ++ a)) (toLower s) := standsApart_lower ⟨fun c hc => hvs.1 c (by
    rwa [List.getLast?_append_of_ne_nil _ ha] at hc), hvs.2⟩
  obtain ⟨t, pre, P', hret', e1, e2, s1, s2, s3, s4, s5, s6, s7, s8, s9, s10⟩ := part_mention hrt hx hpart hT2 hs2 hn.toFewDateWords o2 h3 h4 hlen
  obtain ⟨r, hret, r1, ⟨b, hbl, hbl', r2, r3⟩, r4, r5, r6, r7, r8⟩ := day_mention hrt hx hday hc hT1 hs1 hn.toFewDateWords o1 h1 h2 hlen
  have hbef : Before r t := by
    unfold Before
    rw [s1, r3]
    obtain ⟨a2, ha2⟩ : b <+: toLower a := by
      have p1 : b <+: toLower (a ++ u ++ s) := ⟨_, r2.symm⟩
      have p2 : toLower a <+: toLower (a ++ u ++ s) := ⟨toLower (u ++ s), by simp [toLower_append]⟩
      rcases Nat.le_total b.length (toLower a).length with h | h
      · exact List.prefix_of_prefix_length_le p1 p2 h
      · obtain ⟨z, hz⟩ := List.prefix_of_prefix_length_le p2 p1 h
        cases z with
        | nil => exact ⟨[], by rw [← hz]; simp⟩
        | cons z0 zs =>
          exfalso
          obtain ⟨w0, wall, -⟩ := parts_word _ (partHours_parts _ hpart).1
          have e5 : toLower (a ++ u ++ s) = toLower a ++ toLower u ++ toLower s := by simp [toLower_append]
          rw [e5, ← hz] at r2
          cases hu : toLower u with
          | nil => exact w0 hu
          | cons c0 cs =>
            rw [hu] at r2
            simp only [List.append_assoc, List.append_cancel_left_eq, List.cons_append, List.cons.injEq] at r2
            have h5 := blank_notWord (hbl z0 (by rw [← hz]; simp))
            exact h5 (wordChar_iff.2 (wall z0 (by rw [← r2.1]; show c0 ∈ toLower u; rw [hu]; simp)))
    refine part_after (named_list hday) (a2 := a2) (by rw [← e1]; simp [toLower_append]) e2 (fun c hc => hs1.2 c ?_) hbl ha2.symm ?_
    · rw [toLower_append, toLower_append]
      cases hla : toLower a with
      | nil => rw [hla] at hc; cases hc
      | cons z' t' => rw [hla] at hc; exact hc
    · rcases hbl' with h | h
      · exact .inl h
      · refine .inr fun hb' => hb (by simpa [looseDays] using h) fun c hc => ?_
        have : Blank (lowerB c) := hb' _ (by simpa [toLower] using List.mem_map_of_mem (f := lowerB) hc)
        unfold Blank lowerB at *
        split at this <;> omega
  obtain ⟨n1, n2, i1, i2, hrun⟩ := day_part_run hrt hs hlen (named_near hday) (partHours_parts _ hpart).1 hn hret hret' hbef (.inl ⟨rfl, rfl⟩)
  have nt : ∀ k, k ≠ .casualTime → t.getTag k = false := fun k hk => by
    cases hg : t.getTag k with
    | false => rfl
    | true => exact absurd (s10 k hg) hk
  have nr : ∀ k, k ≠ .casualDate → r.getTag k = false := fun k hk => by
    cases hg : r.getTag k with
    | false => rfl
    | true => exact absurd (r8 k hg) hk
  have hh : h < 24 := by
    have key : ∀ z ∈ partHours, z.2 < 24 := by decide
    exact key _ hpart
  refine prints_either n1 n2 i1 i2 hbef hrun (fun abbr off ht => ?_) (fun abbr off ht => ?_) ?_ (nr _ (by decide)) (nt _ (by decide)) r7 s9
    (d := r) (t := t) (.inl ⟨rfl, rfl⟩) r5 s7 r4 s5 ⟨hc, hh, hx.valid.2.2.1, (by decide : (0 : Nat) < 60)⟩
  · exact absurd (r8 _ ht) (by decide)
  · exact absurd (s10 _ ht) (by decide)
  · rw [s3]; exact hj

/-! ## The conditions can be met, and are needed -/

def timeThenPart : List ((Text × Text × Bool × Nat × Tail × Text × Option Bool) × Text × Text × Text × Nat) :=
  [((txt!"", txt!"9:30", true, 9, .minutes 30, txt!"", none), txt!" in the ", txt!"morning", txt!"", 6),
   ((txt!"Call me at ", txt!"9", true, 9, .none, txt!"", none), txt!" in the ", txt!"Evening", txt!", please.", 20),
   ((txt!"it rang at ", txt!"07:30:15", false, 7, .seconds 30 15, txt!"", none), txt!" this ", txt!"AFTERNOON", txt!"!", 15),
   ((txt!"it was ", txt!"11 PM", false, 11, .none, txt!" pm", some true), txt!", a cold ", txt!"night", txt!" in rome", 20)]

def partThenTime : List (Text × Text × Text × (Text × Bool × Nat × Tail × Text × Option Bool) × Text × Nat) :=
  [(txt!"this ", txt!"evening", txt!" at ", (txt!"9:30", true, 9, .minutes 30, txt!"", none), txt!"", 20),
   (txt!"On a cold ", txt!"Night", txt!" we met at ", (txt!"11 pm", false, 11, .none, txt!" pm", some true), txt!" sharp (in rome).", 20),
   (txt!"", txt!"MORNING", txt!" ", (txt!"8 o'clock", true, 8, .none, txt!" o'clock", none), txt!", please!", 6)]

/-- **C92: the conditions are met** in ordinary texts, and the program prints the time, today. -/
theorem c92_conditions_are_met_time_first : ∀ z ∈ timeThenPart, match z with
    | ((p, v, _, h, t, _, ap), a, u, q, _) =>
      mainRun (Rt.usual 0) sortKeep (p ++ v ++ (a ++ u ++ q)) afternoonRef = .ok (foundLine ++ (DateTime.mk 2019 3 15 (hour24 h ap) t.minute t.second).format) := by
  have hck : ∀ z ∈ timeThenPart, match z with
    | ((p, v, short, h, t, sfx, ap), a, u, q, n) => toLower v = clockText short h t sfx ∧ timeDayChecks p v (a ++ u ++ q) (toLower u) sfx ap = true ∧
        (toLower u, n) ∈ partHours ∧ a.all isSpaceB = false ∧
        (!a.getLast?.any isWordB && !q.head?.any isWordB) = true ∧ occursB true (toLower u) true (toLower (p ++ v ++ a)) = false ∧ occursB true (toLower u) true (toLower q) = false ∧
        (∀ k ∈ joinWords, ¬ k <:+: toLower q) ∧ h < 24 ∧ (short = true → h ≤ 9) ∧ (sfx ≠ [] → h ≤ 12) ∧ t.minute < 60 ∧ t.second < 60 ∧ (p ++ v ++ (a ++ u ++ q)).length < 4294967296 := by decide +kernel
  rintro ⟨⟨p, v, short, h, t, sfx, ap⟩, a, u, q, n⟩ hz
  obtain ⟨h1, h2, h3, h3', h4, h5, h6, h7, h8, h9, h10, h11, h12, h13⟩ := hck _ hz
  obtain ⟨a1, a2, a3, a4, a5, a6, a7, a8⟩ := timeDayChecks_sound h2
  rw [Bool.and_eq_true, Bool.not_eq_true', Bool.not_eq_true'] at h4
  refine c92_time_then_part_in_any_text _ usual_defined _ sortKeep_sorts _ _ afternoonRef_reads short h t sfx ap p v a u q h1 h8 h9 h10 h11 h12 a1 a2 a3 a4 a5 a6 n h3
    ⟨fun c hc => by rw [hc] at h4; rw [wordChar_iff]; simpa using h4.1, fun c hc => by rw [hc] at h4; rw [wordChar_iff]; simpa using h4.2⟩ (fun hb => ?_) a7 (occursB_sound h5) (occursB_sound h6) a8 h7 h13
  rw [List.all_eq_true.2 fun c hc => blank_isSpace (hb c hc)] at h3'
  cases h3'

theorem c92_conditions_are_met_part_first : ∀ z ∈ partThenTime, match z with
    | (q, u, a, (v, _, h, t, _, ap), s, _) =>
      mainRun (Rt.usual 0) sortKeep (q ++ u ++ a ++ v ++ s) afternoonRef = .ok (foundLine ++ (DateTime.mk 2019 3 15 (hour24 h ap) t.minute t.second).format) := by
  have hck : ∀ z ∈ partThenTime, match z with
    | (q, u, a, (v, short, h, t, sfx, ap), s, n) => toLower v = clockText short h t sfx ∧ timeDayChecks (q ++ u ++ a) v s (toLower u) sfx ap = true ∧
        (toLower u, n) ∈ partHours ∧
        (!q.getLast?.any isWordB && !a.head?.any isWordB) = true ∧ occursB true (toLower u) true (toLower q) = false ∧ occursB true (toLower u) true (toLower (a ++ v ++ s)) = false ∧
        (∀ k ∈ joinWords, ¬ k <:+: toLower s) ∧ h < 24 ∧ (short = true → h ≤ 9) ∧ (sfx ≠ [] → h ≤ 12) ∧ t.minute < 60 ∧ t.second < 60 ∧ (q ++ u ++ a ++ v ++ s).length < 4294967296 ∧
        zoneB s = false := by decide +kernel
  rintro ⟨q, u, a, ⟨v, short, h, t, sfx, ap⟩, s, n⟩ hz
  obtain ⟨h1, h2, h3, h4, h5, h6, h7, h8, h9, h10, h11, h12, h13, h14⟩ := hck _ hz
  obtain ⟨a1, a2, a3, a4, a5, a6, a7, a8⟩ := timeDayChecks_sound h2
  rw [Bool.and_eq_true, Bool.not_eq_true', Bool.not_eq_true'] at h4
  exact c92_part_then_time_in_any_text _ usual_defined _ sortKeep_sorts _ _ afternoonRef_reads short h t sfx ap q u a v s h1 h8 h9 h10 h11 h12 a1 a2 a3 a4 a5 a6 n h3
    ⟨fun c hc => by rw [hc] at h4; rw [wordChar_iff]; simpa using h4.1, fun c hc => by rw [hc] at h4; rw [wordChar_iff]; simpa using h4.2⟩ a7 (occursB_sound h5) (occursB_sound h6)
    a8 (zoneB_sound h14) h7 h13

/-- **C92: the conditions are needed.** With just blanks between the time and `morning`, or with `and` after it, something else is printed. -/
theorem c92_conditions_are_needed :
    (∀ s ∈ [txt!"9:30 morning", txt!"at 9:30 in the morning and then go"],
      mainRun (Rt.usual 0) sortKeep s afternoonRef ≠ .ok (foundLine ++ (DateTime.mk 2019 3 15 9 30 0).format)) ∧
    mainRun (Rt.usual 0) sortKeep txt!"9:30 morning" afternoonRef = .ok (foundLine ++ (DateTime.mk 2019 3 15 6 0 0).format) := by
  decide +kernel

/-- The conditions, checked. -/
def dayPartChecks (text day part : Text) : Bool := (dateWordChecks text [day, part]).all id

/-- Samples: what stands before, the first word, what stands between, the second, what stands after. -/
def partThenDay : List (Text × Text × Text × Text × Text × Nat × Nat × Nat × Nat) :=
  [(txt!"in the ", txt!"evening", txt!" ", txt!"tomorrow", txt!"", 20, 2019, 3, 16),
   (txt!"It was a cold ", txt!"Morning", txt!", ", txt!"YESTERDAY", txt!" in rome!", 6, 2019, 3, 14),
   (txt!"this ", txt!"afternoon", txt!" or ", txt!"Tonight", txt!"?", 15, 2019, 3, 15)]

def dayThenPart : List (Text × Text × Text × Text × Text × Nat × Nat × Nat × Nat) :=
  [(txt!"", txt!"today", txt!" ", txt!"evening", txt!"", 20, 2019, 3, 15),
   (txt!"So ", txt!"tomorrow", txt!" in the ", txt!"Morning", txt!", please!", 6, 2019, 3, 16),
   (txt!"it rained ", txt!"Yesterday", txt!", all ", txt!"night", txt!" long", 20, 2019, 3, 14)]

theorem dayPartChecks_sound {text day part : Text} (h : ((dateWordChecks text [day, part]).all id) = true) : NoDateWordsBut [day, part] text :=
  dateWordChecks_sound h

/-- **C93: the conditions are met** in ordinary texts, and the program prints the hour of that part of that day. -/
theorem c93_conditions_are_met_part_first : ∀ z ∈ partThenDay, match z with
    | (p, u, a, v, s, h, y, m, d) =>
      mainRun (Rt.usual 0) sortKeep (p ++ u ++ a ++ v ++ s) afternoonRef = .ok (foundLine ++ (DateTime.mk y m d h 0 0).format) := by
  have hck : ∀ z ∈ partThenDay, match z with
    | (p, u, a, v, s, h, y, m, d) => (toLower u, h) ∈ partHours ∧
        (toLower v, y, m, d) ∈ [(txt!"today", 2019, 3, 15), (txt!"tonight", 2019, 3, 15), (txt!"tomorrow", 2019, 3, 16), (txt!"yesterday", 2019, 3, 14)] ∧
        (!p.getLast?.any isWordB && !a.head?.any isWordB) = true ∧ (!a.getLast?.any isWordB && !s.head?.any isWordB) = true ∧ a ≠ [] ∧
        dayPartChecks (p ++ u ++ a ++ v ++ s) (toLower v) (toLower u) = true ∧
        occursB true (toLower u) true (toLower p) = false ∧ occursB true (toLower u) true (toLower (a ++ v ++ s)) = false ∧
        occursB true (toLower v) true (toLower (p ++ u ++ a)) = false ∧ occursB true (toLower v) true (toLower s) = false ∧
        (∀ k ∈ joinWords, ¬ k <:+: toLower s) ∧ (p ++ u ++ a ++ v ++ s).length < 4294967296 := by decide +kernel
  rintro ⟨p, u, a, v, s, h, y, m, d⟩ hz
  obtain ⟨h1, h2, h3, h4, h5, h6, h7, h8, h9, h10, h11, h12⟩ := hck _ hz
  obtain ⟨d1, d2⟩ := sample_days h2
  rw [Bool.and_eq_true, Bool.not_eq_true', Bool.not_eq_true'] at h3 h4
  exact c93_part_then_day_in_any_text _ usual_defined _ sortKeep_sorts _ _ afternoonRef_reads p u a v s h h1 y m d d1 d2
    ⟨fun c hc => by rw [hc] at h3; rw [wordChar_iff]; simpa using h3.1, fun c hc => by rw [hc] at h3; rw [wordChar_iff]; simpa using h3.2⟩
    ⟨fun c hc => by rw [hc] at h4; rw [wordChar_iff]; simpa using h4.1, fun c hc => by rw [hc] at h4; rw [wordChar_iff]; simpa using h4.2⟩ h5 (dayPartChecks_sound h6)
    (occursB_sound h7) (occursB_sound h8) (occursB_sound h9) (occursB_sound h10) h11 h12

theorem c93_conditions_are_met_day_first : ∀ z ∈ dayThenPart, match z with
    | (p, v, a, u, s, h, y, m, d) =>
      mainRun (Rt.usual 0) sortKeep (p ++ v ++ a ++ u ++ s) afternoonRef = .ok (foundLine ++ (DateTime.mk y m d h 0 0).format) := by
  have hck : ∀ z ∈ dayThenPart, match z with
    | (p, v, a, u, s, h, y, m, d) => (toLower u, h) ∈ partHours ∧
        (toLower v, y, m, d) ∈ [(txt!"today", 2019, 3, 15), (txt!"tonight", 2019, 3, 15), (txt!"tomorrow", 2019, 3, 16), (txt!"yesterday", 2019, 3, 14)] ∧
        (!p.getLast?.any isWordB && !a.head?.any isWordB) = true ∧ (!a.getLast?.any isWordB && !s.head?.any isWordB) = true ∧ a ≠ [] ∧
        dayPartChecks (p ++ v ++ a ++ u ++ s) (toLower v) (toLower u) = true ∧
        occursB true (toLower v) true (toLower p) = false ∧ occursB true (toLower v) true (toLower (a ++ u ++ s)) = false ∧
        occursB true (toLower u) true (toLower (p ++ v ++ a)) = false ∧ occursB true (toLower u) true (toLower s) = false ∧
        (toLower v ∈ [txt!"tomorrow", txt!"tmr", txt!"yesterday"] → a.all isSpaceB = false) ∧
        (∀ k ∈ joinWords, ¬ k <:+: toLower s) ∧ (p ++ v ++ a ++ u ++ s).length < 4294967296 := by decide +kernel
  rintro ⟨p, v, a, u, s, h, y, m, d⟩ hz
  obtain ⟨h1, h2, h3, h4, h5, h6, h7, h8, h9, h10, h10', h11, h12⟩ := hck _ hz
  obtain ⟨d1, d2⟩ := sample_days h2
  rw [Bool.and_eq_true, Bool.not_eq_true', Bool.not_eq_true'] at h3 h4
  refine c93_day_then_part_in_any_text _ usual_defined _ sortKeep_sorts _ _ afternoonRef_reads p v a u s h h1 y m d d1 d2
    ⟨fun c hc => by rw [hc] at h3; rw [wordChar_iff]; simpa using h3.1, fun c hc => by rw [hc] at h3; rw [wordChar_iff]; simpa using h3.2⟩
    ⟨fun c hc => by rw [hc] at h4; rw [wordChar_iff]; simpa using h4.1, fun c hc => by rw [hc] at h4; rw [wordChar_iff]; simpa using h4.2⟩ h5 (dayPartChecks_sound h6)
    (occursB_sound h7) (occursB_sound h8) (occursB_sound h9) (occursB_sound h10) (fun hv hb => ?_) h11 h12
  have := h10' hv
  rw [List.all_eq_true.2 fun c hc => blank_isSpace (hb c hc)] at this
  cases this

/-- **C93: the conditions are needed.** With just a blank between `tomorrow` and `morning` the part of the day is lost, after `tmr` even the day; with `and` after it a range is printed. -/
theorem c93_conditions_are_needed :
    mainRun (Rt.usual 0) sortKeep txt!"tomorrow morning" afternoonRef = .ok (foundLine ++ (DateTime.mk 2019 3 16 0 0 0).format) ∧
    mainRun (Rt.usual 0) sortKeep txt!"tmr evening" afternoonRef = .ok (foundLine ++ (DateTime.mk 2019 3 15 20 0 0).format) ∧
    mainRun (Rt.usual 0) sortKeep txt!"in the evening tomorrow and then go" afternoonRef ≠ .ok (foundLine ++ (DateTime.mk 2019 3 16 20 0 0).format) := by
  decide +kernel

end Chrono.Props
