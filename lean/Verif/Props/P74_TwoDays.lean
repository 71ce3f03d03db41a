import Verif.Props.P73_Parts
/-!
# C94: two days in any text
-/
namespace Chrono.Props
open Chrono Chrono.Spec Chrono.Boost

/-- The pattern matches where the word stands. -/
theorem framed_rel {i j k : Nat} {b : Re} (hb : b.free = true) {w : Text} (hl : Lang b w) {p s : Text} (hps : StandsApart p s)
    (hw : w ≠ []) (hall : ∀ c ∈ w, isWordB c = true) :
    ∃ s', Rel (Re.seq (.cap i (.wb false)) (.seq (.cap j b) (.cap k (.wb false)))) (startSt (p ++ w ++ s) p.length) s' := by
  have edge : ∀ {o : Option Nat}, (∀ c, o = some c → ¬ WordChar c) → o.any isWordB = false := by
    intro o ho
    cases o with
    | none => rfl
    | some c => have := ho c rfl; rw [wordChar_iff] at this; simpa using this
  obtain ⟨c, w', rfl⟩ := List.exists_cons_of_ne_nil hw
  have hdrop : (p ++ (c :: w') ++ s).drop p.length = c :: w' ++ s := by rw [List.append_assoc, List.drop_left]
  have htake : (p ++ (c :: w') ++ s).take p.length = p := by rw [List.append_assoc, List.take_left]
  have b0 : (startSt (p ++ (c :: w') ++ s) p.length).atWordBoundary = true := by
    unfold St.atWordBoundary startSt
    rw [hdrop, htake]
    have := edge hps.1
    simp only [List.cons_append]
    rw [hall c (by simp)]
    cases hp : p.getLast? with
    | none => rfl
    | some x => rw [hp] at this; simp only [Option.any_some] at this; show (isWordB x != true) = true; rw [this]; rfl
  have hz : (St.mk p.length ((p ++ (c :: w') ++ s).take p.length).getLast? ((p ++ (c :: w') ++ s).drop p.length) [(i, p.length, p.length)]).rest = (c :: w') ++ s := hdrop
  obtain ⟨z', hr, hc, hrest⟩ := hl.rel hb hz
  refine ⟨_, .seq (.cap (.wb (by rw [b0]; rfl))) (.seq (.cap hr) (.cap (.wb ?_)))⟩
  have hprev := hc.prev
  have hlast : ∃ x, (c :: w').getLast? = some x ∧ isWordB x = true := by
    refine ⟨(c :: w').getLast (by simp), List.getLast?_eq_some_getLast (by simp), hall _ (List.getLast_mem _)⟩
  obtain ⟨x, hx, hxw⟩ := hlast
  rw [hx] at hprev
  simp only [Option.some_or] at hprev
  have key : z'.atWordBoundary = true := by
    unfold St.atWordBoundary
    rw [hprev, hrest]
    simp only [hxw]
    cases s with
    | nil => rfl
    | cons y s => have := edge hps.2; simp only [List.head?_cons, Option.any_some] at this; simp [this]
  have key' : ∀ cs, (St.mk z'.pos z'.prev z'.rest cs).atWordBoundary = true := fun _ => key
  rw [key']; rfl

/-- Nothing like `last night` (in lower case). -/
def NoLastNight (t : Text) : Prop := ¬ BeginsAWord txt!"last" t ∨ ¬ WholeWord txt!"lastnight" t ∧ ¬ WholeWord txt!"night" t

/-- The first name of a day in a text is what the pattern finds first. -/
theorem casualDate_first {T P S w : Text} (hw : w ∈ nearDays) (hTl : toLower T = T) (hT : T = P ++ w ++ S) (hps : StandsApart P S)
    (hP : ∀ k ∈ nearDays, ¬ WholeWord k P) (h : NoLastNight T) :
    ∃ mt b, Ast.casualDate.search T = some mt ∧ mt.str 0 = w ++ b ∧ Blanks b ∧ (b = [] ∨ w ∈ looseDays) ∧ S = b ++ T.drop mt.stop ∧ mt.start = P.length := by
  obtain ⟨w0, wall, wlow⟩ := nearDays_word w hw
  obtain ⟨body, he, hfree, hwordy, hfull⟩ := casualDate_shape
  have hfr : framed Ast.casualDate = true := by rw [he]; rfl
  obtain ⟨s', hrel⟩ := framed_rel (i := 1) (j := 2) (k := 3) hfree (lang_of_fullMatch (hfull w hw)) hps w0 wall
  rw [← he, ← hT] at hrel
  obtain ⟨mt, hm, hle⟩ := search_before (by rw [hT]; simp) hrel
  have hl : Lang body (mt.str 0) := framed_lang (by rw [← he]; exact hm)
  have hlow : toLower (mt.str 0) = mt.str 0 := lower_of_infix (t := T) (by rw [hTl]; exact str_infix hm 0)
  obtain ⟨e1, e2⟩ := framed_word hfr hm
  obtain ⟨-, -, hsplit⟩ := framed_edges hfr hm
  have htl : (T.take mt.start).length = mt.start := by
    rw [List.length_take, hT]; simp only [List.length_append]; omega
  have main : ∀ w' b, w' ∈ nearDays → Blanks b → mt.str 0 = w' ++ b → w' = w ∧ S = b ++ T.drop mt.stop ∧ mt.start = P.length := by
    intro w' b hw' hb hu
    obtain ⟨w0', wall', -⟩ := nearDays_word w' hw'
    have ha : ∀ c, (T.take mt.start).getLast? = some c → ¬ WordChar c := by
      obtain ⟨c, v, rfl⟩ := List.exists_cons_of_ne_nil w0'
      exact e1 c (v ++ b) hu (wall' c (by simp))
    have hb' : ∀ c, (b ++ T.drop mt.stop).head? = some c → ¬ WordChar c := by
      cases b with
      | cons c b => intro x hx; cases hx; exact blank_notWord (hb c (by simp))
      | nil =>
        rw [List.append_nil] at hu
        refine e2 (w'.getLast w0') ?_ (wall' _ (List.getLast_mem _))
        rw [hu]; exact List.getLast?_eq_some_getLast w0'
    have hs : T.take mt.start ++ w' ++ (b ++ T.drop mt.stop) = P ++ w ++ S := by
      rw [← hT, List.append_assoc, ← List.append_assoc w', ← hu]; exact hsplit.symm
    have h1 := wordAt_of w0' wall' ha hb'
    have h2 := wordAt_of w0 wall hps.1 hps.2
    rw [hs] at h1
    rcases h1.cases h2 with h | ⟨h, h'⟩ | h
    · exfalso
      have := List.length_pos_of_ne_nil w0
      omega
    · have hst : mt.start = P.length := by omega
      have hp : T.take mt.start = P := by rw [hst, hT, List.append_assoc, List.take_left]
      rw [hp] at hs
      simp only [List.append_assoc, List.append_cancel_left_eq] at hs
      have hww : w' = w := (List.append_inj hs (by omega)).1
      refine ⟨hww, ?_, hst⟩
      exact (List.append_inj hs (by omega)).2.symm
    · exfalso
      have h : mt.start + w'.length ≤ P.length := by omega
      obtain ⟨d, hd⟩ : T.take mt.start ++ w' <+: P := by
        refine List.prefix_of_prefix_length_le (l₃ := P ++ w ++ S) ⟨_, hs⟩ ⟨w ++ S, by simp⟩ ?_
        rw [List.length_append]; omega
      refine hP w' hw' ⟨T.take mt.start, d, hd.symm, fun _ => ha, fun _ c hc => hb' c ?_⟩
      rw [← hd] at hs
      simp only [List.append_assoc, List.append_cancel_left_eq] at hs
      rw [hs, List.head?_append, hc]; rfl
  rcases wordy_lang hwordy hl hlow with h1 | ⟨w', hw', b, hb, hu⟩ | h1
  · obtain ⟨h2, h3, h4⟩ := main (mt.str 0) [] (by simpa [exactDays, nearDays] using h1) (by simp [Blanks]) (by simp)
    exact ⟨mt, [], hm, by simp [h2], by simp [Blanks], .inl rfl, h3, h4⟩
  · obtain ⟨rfl, h3, h4⟩ := main w' b (loose_near w' hw') hb hu
    exact ⟨mt, b, hm, hu, hb, .inr hw', h3, h4⟩
  · exfalso
    obtain ⟨b, hb, hu⟩ := lastNight_words h1 hlow
    have ha : ∀ c, (T.take mt.start).getLast? = some c → ¬ WordChar c := e1 108 (txt!"ast" ++ b ++ txt!"night") (by rw [hu]; rfl) (by decide)
    have hz : ∀ c, (T.drop mt.stop).head? = some c → ¬ WordChar c := e2 116 (by rw [hu, List.getLast?_append]; rfl) (by decide)
    rw [hu] at hsplit
    rcases h with h2 | ⟨h2, h3⟩
    · exact h2 ⟨_, _, by rw [List.append_assoc]; simpa only [List.append_assoc] using hsplit, fun _ => ha, by simp⟩
    · cases hb0 : b.getLast? with
      | none =>
        rw [List.getLast?_eq_none_iff] at hb0
        subst hb0
        exact h2 ⟨_, _, by rw [List.append_assoc]; exact hsplit, fun _ => ha, fun _ => hz⟩
      | some c =>
        refine h3 ⟨T.take mt.start ++ (txt!"last" ++ b), _, by simpa only [List.append_assoc] using hsplit, fun _ x hx => ?_, fun _ => hz⟩
        rw [List.getLast?_append, List.getLast?_append, hb0] at hx
        cases hx
        exact blank_notWord (hb _ (List.mem_of_getLast? hb0))

/-- No name of a day: the pattern finds nothing. -/
theorem casualDate_none {R : Text} (hRl : toLower R = R) (days : ∀ k ∈ nearDays, ¬ WholeWord k R) (h : NoLastNight R) : Ast.casualDate.search R = none := by
  rw [← hRl]
  rcases h with h1 | ⟨h1, h2⟩
  · refine Re.search_needs casualDate_needs₂ (by decide +kernel) (fun k hk => ?_) (by simp)
    rw [hRl]
    rcases List.mem_append.1 hk with hk | hk
    · exact not_whole days k hk
    · rw [List.mem_singleton] at hk; subst hk
      exact h1
  · refine Re.search_needs casualDate_needs (by decide +kernel) (not_whole fun w hw => ?_) (by simp)
    rw [hRl]
    rcases List.mem_append.1 hw with hw | hw
    · exact days w hw
    · simp only [List.mem_cons, List.not_mem_nil, or_false] at hw
      rcases hw with rfl | rfl
      · exact h2
      · exact h1

/-! ## What is found on the two sides -/

theorem occurs_left {k p : Text} (X : Text) {e : Bool} (hk : k ≠ []) (hw : ∀ c ∈ k, isWordB c = true) (hp : ∀ c, p.getLast? = some c → ¬ WordChar c) (h : Occurs true k e p) :
    Occurs true k e (p ++ X) := by
  obtain ⟨a, b, rfl, h1, h2⟩ := h
  refine ⟨a, b ++ X, by simp, h1, fun he c hc => ?_⟩
  cases b with
  | cons d b => cases hc; exact h2 he _ rfl
  | nil =>
    exfalso
    rw [List.append_nil, List.getLast?_append_of_ne_nil _ hk] at hp
    exact hp _ (List.getLast?_eq_some_getLast hk) (wordChar_iff.2 (hw _ (List.getLast_mem _)))

theorem infix_after_blanks {k b u : Text} (hk : k ≠ []) (hn : ∀ c ∈ k, ¬ Blank c) (hb : Blanks b) (h : k <:+: b ++ u) : k <:+: u := by
  induction b with
  | nil => exact h
  | cons c b ih =>
    rcases List.infix_cons_iff.1 h with h | h
    · exfalso
      obtain ⟨z, hz⟩ := h
      cases k with
      | nil => exact hk rfl
      | cons d k =>
        simp only [List.cons_append, List.cons.injEq] at hz
        exact hn d (by simp) (by rw [hz.1]; exact hb c (by simp))
    · exact ih (fun c hc => hb c (by simp [hc])) h

theorem joinWords_range : joinWords = rangeWords := rfl

theorem joinWords_solid : ∀ k ∈ joinWords, k ≠ [] ∧ ∀ c ∈ k, ¬ Blank c := by
  have : ∀ k ∈ joinWords, k ≠ [] ∧ ∀ c ∈ k, ¬ isSpaceB c = true := by decide
  intro k hk
  obtain ⟨h1, h2⟩ := this k hk
  exact ⟨h1, fun c hc hb => h2 c hc (blank_isSpace hb)⟩

theorem moment_near {x z : DateTime} {w : Text} (h : MomentNamed x w z) : w ∈ nearDays := by
  cases h with
  | now => decide
  | tonight => decide
  | day hw h => clear h; revert w; decide
  | yesterday => decide

theorem moment_reads {w : Text} {ref tmp : PTime} {t' : DateTime} (hr : RefReads tmp t') {c : Comps} {h mi s : Nat} (h1 : dayRead w ref = (c, tmp)) (hc : TimeIs c h mi s) :
    ∃ c', dayComps w ref = .ok c' ∧ Reads c' ⟨t'.year, t'.month, t'.day, h, mi, s⟩ ∧ c'.certain .month = true := by
  obtain ⟨e1, e2, e3, -⟩ := Date.year_of_ymd hr.date
  refine ⟨((c.set .year t'.year).set .month t'.month).set .mday t'.day, ?_, ?_, ?_⟩
  · unfold dayComps
    rw [h1]
    simp only []
    rw [e1, e2, e3]
    rfl
  · obtain ⟨n1, n2, n3⟩ := hc
    exact ⟨rfl, rfl, rfl, n1, n2, n3⟩
  · rfl

theorem moment_ok {ref : PTime} {x z : DateTime} (hx : RefReads ref x) {w : Text} (hd : MomentNamed x w z) (hc : z.Valid) :
    ∃ c, dayComps w ref = .ok c ∧ Reads c z ∧ c.certain .month = true := by
  have hh := hx.hours
  have hmi := hx.minutes
  have hse := hx.seconds
  have hn : TimeIs Comps.empty 0 0 0 := ⟨rfl, rfl, rfl⟩
  have hi : ∀ v : Nat, TimeIs (Comps.empty.imply .hour v) v 0 0 := fun v => ⟨rfl, rfl, rfl⟩
  have loose : ∀ {w : Text}, w ∈ [txt!"tomorrow", txt!"tmr"] → ∀ {tmp : PTime}, (if ref.hours > 0 then ref.addDays 1 else ref) = tmp → dayRead w ref = (Comps.empty, tmp) := by
    intro w hw tmp ht
    simp only [List.mem_cons, List.not_mem_nil, or_false] at hw
    rcases hw with rfl | rfl <;>
      · unfold dayRead
        casual_cases
        rw [ht]; rfl
  cases hd with
  | now =>
    have := moment_reads (w := txt!"now") hx (c := ((Comps.empty.set .hour ref.hours).set .min ref.minutes).set .sec ref.seconds) (h := x.hour) (mi := x.minute) (s := x.second)
      (by unfold dayRead; casual_cases; rfl) ⟨hh, hmi, hse⟩
    exact this
  | tonight => exact moment_reads hx (c := Comps.empty.imply .hour 22) (by unfold dayRead; casual_cases; rfl) (hi 22)
  | yesterday h =>
    rename_i y m d
    have hr := hx.daysEarlier 1 (x := (y, m, d)) hc.1 h
    exact moment_reads hr (c := Comps.empty.imply .hour ref.hours) (by unfold dayRead; casual_cases; rfl) (by rw [hh]; exact hi x.hour)
  | day hw h =>
    rename_i y m d
    generalize hD : (y, m, d) = D at h
    cases h with
    | today => cases hD; exact moment_reads hx (c := Comps.empty) (by unfold dayRead; casual_cases; rfl) hn
    | tonight => exact absurd hw (by decide)
    | tomorrow hw h =>
      have hr := hx.daysLater 1 (by
        rw [show daysLater 1 x.date = nextDay x.date from rfl, ← hD]; exact hc.1)
      rw [show daysLater 1 x.date = nextDay x.date from rfl, ← hD] at hr
      exact moment_reads hr (loose hw (by rw [if_pos (by rw [hh]; omega)]; rfl)) hn
    | firstHour hw h => cases hD; exact moment_reads hx (loose hw (by rw [if_neg (by rw [hh]; omega)])) hn
    | yesterday h => exact absurd hw (by decide)

/-- What the parser makes of a match that is the name of a day, at a place of the text. -/
theorem day_result {rt : Rt} {ref : PTime} {x z : DateTime} (hx : RefReads ref x) {w b tx : Text} (hd : MomentNamed x w z) (hv : z.Valid)
    (hb : Blanks b) (hbl : b = [] ∨ w ∈ looseDays) {mt : Match} (hu : mt.str 0 = w ++ b) (hlow : toLower (w ++ b) = w ++ b) {idx : Nat} (hidx : idx < 4294967296) :
    ∃ r, (∀ g, casualDateParser.extract rt g tx mt ref idx = .ok (r, g)) ∧ r.hasPossibleDates = true ∧ r.copy.index = idx ∧ stop r.copy = idx + w.length + b.length ∧
      Reads r.copy.startDate z ∧ isTimeOnly r.copy = false ∧ r.copy.hasEnd = false ∧ ∀ t, r.copy.getTag t = true → t = .casualDate := by
  obtain ⟨c, hcm, c1, c2⟩ := moment_ok hx hd hv
  have hex := day_extract (rt := rt) (g := integerWords) (tx := tx) (ref := ref) (idx := idx) (moment_near hd) hb hbl hu hlow
  rw [hcm, Out.bind_ok] at hex
  have hi : PResult.toU32 idx = idx := by unfold PResult.toU32; omega
  obtain ⟨r, hr⟩ : ∃ r, r = ({ PResult.mk' ref idx (w ++ b) with startDate := c } : PResult).setTag .casualDate := ⟨_, rfl⟩
  rw [← hr] at hex
  have r1 : r.index = idx := by rw [hr]; exact hi
  have r2 : r.text = w ++ b := by rw [hr]; rfl
  have r3 : r.startDate = c := by rw [hr]; rfl
  have r4 : r.hasEnd = false := by rw [hr]; rfl
  refine ⟨r, fun g => pureExtract_ok hex, ?_, ?_, ?_, ?_, ?_, r4, ?_⟩
  · refine hasPossibleDates_of_year ?_
    rw [r3, c1.1]
    have := hv.1.1
    omega
  · rw [copy_index, r1]
  · unfold stop PResult.textLength
    rw [copy_index, copy_text, r1, r2, List.length_append]
    omega
  · show Reads r.startDate _
    rw [r3]; exact c1
  · show (!r.startDate.certain .month && !r.startDate.certain .mday) = false
    rw [r3, c2]; rfl
  · intro t ht
    have : r.getTag t = true := ht
    rw [hr] at this
    by_contra hne
    unfold PResult.getTag PResult.setTag at this
    simp [hne, PResult.mk'] at this

/-- Two names of days in a text: two mentions. -/
theorem two_days {rt : Rt} (hrt : Rt.Defined rt) {sort : List PResult → List PResult} (hs : Sorts sort) {ref : PTime} {x z1 z2 : DateTime} (hx : RefReads ref x)
    {p u a v s : Text} (hd1 : MomentNamed x (toLower u) z1) (hv1 : z1.Valid) (hd2 : MomentNamed x (toLower v) z2) (hv2 : z2.Valid)
    (hps : StandsApart p a) (hvs : StandsApart a s) (ha : a ≠ []) (hn : NoDateWordsBut [toLower u, toLower v] (p ++ u ++ a ++ v ++ s))
    (hno : ∀ w ∈ [toLower u, toLower v], ¬ WholeWord w (toLower p) ∧ ¬ WholeWord w (toLower a) ∧ ¬ WholeWord w (toLower s)) (hlen : (p ++ u ++ a ++ v ++ s).length < 4294967296) :
    ∃ r1 r2 : PResult, (NonEmpty r1 ∧ NonEmpty r2 ∧ Inside (toLower (p ++ u ++ a ++ v ++ s)) r1 ∧ Inside (toLower (p ++ u ++ a ++ v ++ s)) r2 ∧ Before r1 r2) ∧
      mainRun rt sort (p ++ u ++ a ++ v ++ s) ref = (do
        let rs ← tzRefine [r1, r2] (toLower (p ++ u ++ a ++ v ++ s))
        let rs ← mdtRefine rs (toLower (p ++ u ++ a ++ v ++ s))
        let rs ← mdrRefine rs (toLower (p ++ u ++ a ++ v ++ s))
        printResult rs) ∧
      (Reads r1.startDate z1 ∧ isTimeOnly r1 = false ∧ r1.hasEnd = false ∧ ∀ t, r1.getTag t = true → t = .casualDate) ∧
      (Reads r2.startDate z2 ∧ isTimeOnly r2 = false ∧ r2.hasEnd = false ∧ ∀ t, r2.getTag t = true → t = .casualDate) ∧
      (Joined (toLower (p ++ u ++ a ++ v ++ s)) r1 r2 ↔ ∃ k ∈ joinWords, k <:+: toLower a) := by
  generalize hX : p ++ u ++ a ++ v ++ s = X at *
  have hw1 := moment_near hd1
  have hw2 := moment_near hd2
  obtain ⟨u0, uall, -⟩ := nearDays_word _ hw1
  obtain ⟨v0, vall, -⟩ := nearDays_word _ hw2
  have hT1 : toLower X = toLower p ++ toLower u ++ toLower (a ++ v ++ s) := by rw [← hX]; simp [toLower_append]
  have hT2 : toLower X = toLower (p ++ u ++ a) ++ toLower v ++ toLower s := by rw [← hX]; simp [toLower_append]
  have hTl : toLower (toLower X) = toLower X := toLower_toLower X
  have hs1 : StandsApart (toLower p) (toLower (a ++ v ++ s)) := standsApart_lower ⟨hps.1, fun c hc => hps.2 c (by
    cases a with
    | nil => exact absurd rfl ha
    | cons z t => exact hc)⟩
  have hs2 : StandsApart (toLower (p ++ u ++ a)) (toLower s) := standsApart_lower ⟨fun c hc => hvs.1 c (by
    rwa [List.getLast?_append_of_ne_nil _ ha] at hc), hvs.2⟩
  have hs2' := standsApart_lower hvs
  have hlast : NoLastNight (toLower X) := hn.lastNight
  -- names of days are nowhere else
  have nop : ∀ k ∈ nearDays, ¬ WholeWord k (toLower p) := by
    intro k hk ho
    by_cases hm : k ∈ [toLower u, toLower v]
    · exact (hno k hm).1 ho
    · obtain ⟨k0, kall, -⟩ := nearDays_word k hk
      refine hn.days k hk hm ?_
      rw [hT1, List.append_assoc]
      exact occurs_left _ k0 kall hs1.1 ho
  have nos : ∀ k ∈ nearDays, ¬ WholeWord k (toLower s) := by
    intro k hk ho
    by_cases hm : k ∈ [toLower u, toLower v]
    · exact (hno k hm).2.2 ho
    · refine hn.days k hk hm ?_
      rw [hT2]
      exact occurs_right _ (near_head k hk) hs2.2 ho
  have noa : ∀ k ∈ nearDays, ¬ WholeWord k (toLower a) := by
    intro k hk ho
    by_cases hm : k ∈ [toLower u, toLower v]
    · exact (hno k hm).2.1 ho
    · obtain ⟨k0, kall, -⟩ := nearDays_word k hk
      refine hn.days k hk hm ?_
      rw [hT1]
      refine occurs_right _ (near_head k hk) hs1.2 ?_
      rw [toLower_append, toLower_append, List.append_assoc]
      exact occurs_left _ k0 kall hs2'.1 ho
  -- the first match
  obtain ⟨mt1, b1, hm1, hu1, hb1, hbl1, hS1, hst1⟩ := casualDate_first hw1 hTl hT1 hs1 nop hlast
  have hlow1 : toLower (toLower u ++ b1) = toLower u ++ b1 := by rw [← hu1]; exact lower_of_infix (str_infix hm1 0)
  obtain ⟨a2, ha2⟩ : b1 <+: toLower a := by
    have p1 : b1 <+: toLower (a ++ v ++ s) := ⟨_, hS1.symm⟩
    have p2 : toLower a <+: toLower (a ++ v ++ s) := ⟨toLower (v ++ s), by simp [toLower_append]⟩
    rcases Nat.le_total b1.length (toLower a).length with h | h
    · exact List.prefix_of_prefix_length_le p1 p2 h
    · obtain ⟨z, hz⟩ := List.prefix_of_prefix_length_le p2 p1 h
      cases z with
      | nil => exact ⟨[], by rw [← hz]; simp⟩
      | cons z0 zs =>
        exfalso
        have e5 : toLower (a ++ v ++ s) = toLower a ++ toLower v ++ toLower s := by simp [toLower_append]
        rw [e5, ← hz] at hS1
        cases hu : toLower v with
        | nil => exact v0 hu
        | cons c0 cs =>
          rw [hu] at hS1
          simp only [List.append_assoc, List.append_cancel_left_eq, List.cons_append, List.cons.injEq] at hS1
          have h5 := blank_notWord (hb1 z0 (by rw [← hz]; simp))
          exact h5 (wordChar_iff.2 (vall z0 (by rw [← hS1.1, hu]; simp)))
  have hR : (toLower X).drop mt1.stop = a2 ++ toLower v ++ toLower s := by
    have e5 : toLower (a ++ v ++ s) = b1 ++ (a2 ++ toLower v ++ toLower s) := by rw [toLower_append, toLower_append, ← ha2]; simp
    rw [e5] at hS1
    exact (List.append_cancel_left hS1).symm
  obtain ⟨R, hRd⟩ : ∃ R, R = (toLower X).drop mt1.stop := ⟨_, rfl⟩
  rw [← hRd] at hR
  have hRl : toLower R = R := lower_of_infix (t := X) (by rw [hRd]; exact (List.drop_suffix _ _).isInfix)
  have up : ∀ {e : Bool} {k : Text}, k.head?.any isWordB = true → Occurs true k e R → Occurs true k e (toLower X) := by
    intro e k hk ho
    rw [hT1]
    refine occurs_right _ hk hs1.2 ?_
    rw [hS1, ← hRd]
    exact occurs_after_blanks hb1 ho
  have hlast2 : NoLastNight R := hlast.imp (fun h ho => h (up (by decide) ho)) fun h => ⟨fun ho => h.1 (up (by decide) ho), fun ho => h.2 (up (by decide) ho)⟩
  have hs3 : StandsApart a2 (toLower s) := by
    refine ⟨fun c hc => hs2'.1 c ?_, hs2.2⟩
    rw [← ha2, List.getLast?_append, hc]; rfl
  have noa2 : ∀ k ∈ nearDays, ¬ WholeWord k a2 := fun k hk ho => noa k hk (by rw [← ha2]; exact occurs_after_blanks hb1 ho)
  -- the second match
  obtain ⟨mt2, b2, hm2, hu2, hb2, hbl2, hS2, hst2⟩ := casualDate_first hw2 hRl hR hs3 noa2 hlast2
  have hlow2 : toLower (toLower v ++ b2) = toLower v ++ b2 := by
    rw [← hu2]; exact lower_of_infix (t := R) (by rw [hRl]; exact str_infix hm2 0)
  -- no third one
  have hdrop : (toLower X).drop (mt1.stop + mt2.stop) = R.drop mt2.stop := by rw [hRd, List.drop_drop]
  have hn3 : Ast.casualDate.search ((toLower X).drop (mt1.stop + mt2.stop)) = none := by
    rw [hdrop]
    have up' : ∀ {e : Bool} {k : Text}, k.head?.any isWordB = true → Occurs true k e (R.drop mt2.stop) → Occurs true k e (toLower s) := by
      intro e k hk ho
      rw [hS2]
      exact occurs_after_blanks hb2 ho
    have up2 : ∀ {e : Bool} {k : Text}, k.head?.any isWordB = true → Occurs true k e (R.drop mt2.stop) → Occurs true k e (toLower X) := by
      intro e k hk ho
      rw [hT2]
      exact occurs_right _ hk hs2.2 (up' hk ho)
    refine casualDate_none ?_ (fun k hk ho => nos k hk (up' (near_head k hk) ho)) ?_
    · exact lower_of_infix (t := R) (by rw [hRl]; exact (List.drop_suffix _ _).isInfix)
    · exact hlast.imp (fun h ho => h (up2 (by decide) ho)) fun h => ⟨fun ho => h.1 (up2 (by decide) ho), fun ho => h.2 (up2 (by decide) ho)⟩
  -- lengths
  have hXl : (toLower X).length = X.length := by simp [toLower]
  have l1 := congrArg List.length hT1
  have l2 := congrArg List.length hT2
  have l3 := congrArg List.length hS1
  have l4 := congrArg List.length hR
  have l5 := congrArg List.length ha2
  have l6 : (toLower (p ++ u ++ a)).length = (toLower p).length + (toLower u).length + (toLower a).length := by simp only [toLower_append, List.length_append]
  have l7 := (Re.search_ok hm1).stop_le
  rw [← hRd] at l3
  have l8 := congrArg List.length hRd
  simp only [List.length_append, List.length_drop] at l1 l2 l3 l4 l5 l8
  obtain ⟨q1, x1, y1, i1, e1, f1, f2, f3, f4⟩ := day_result (rt := rt) (tx := toLower X) hx hd1 hv1 hb1 hbl1 hu1 hlow1 (idx := mt1.start) (by omega)
  obtain ⟨q2, x2, y2, i2, e2, g1, g2, g3, g4⟩ := day_result (rt := rt) (tx := R) hx hd2 hv2 hb2 hbl2 hu2 hlow2 (idx := mt1.stop + mt2.start) (by omega)
  have hret : ParserReturns rt ref X casualDateParser [q1.copy, q2.copy] :=
    ⟨_, execute_two hrt.stale casualDate_pattern casualDate_min hm1 (x1 _) y1 (by rw [← hRd]; exact hm2) (by rw [← hRd]; exact x2 _) y2 hn3⟩
  have hbef : Before q1.copy q2.copy := by
    unfold Before
    rw [e1, i2]
    omega
  have key : ∀ k ∈ otherKeys, k ∉ [toLower u, toLower v] := by
    intro k hk hm
    simp only [List.mem_cons, List.not_mem_nil, or_false] at hm
    rcases hm with rfl | rfl
    · exact near_notOther _ hw1 _ hk (by simp)
    · exact near_notOther _ hw2 _ hk (by simp)
  have key' : ∀ k ∈ partsOfDay, k ∉ [toLower u, toLower v] := by
    intro k hk hm
    simp only [List.mem_cons, List.not_mem_nil, or_false] at hm
    rcases hm with rfl | rfl
    · exact near_notPart _ hw1 _ hk (by simp)
    · exact near_notPart _ hw2 _ hk (by simp)
  have ho := no_others hn key
  have quiet : ∀ {P : Parser} {r : Re}, P.pattern = some r → r.search (toLower X) = none → ∃ rs, ParserReturns rt ref X P rs ∧ ∀ y ∈ rs, y = q1.copy ∨ y = q2.copy ∨
      ((Overlap y q1.copy ∨ Overlap y q2.copy) ∧ (Overlap y q1.copy → y.textLength < q1.copy.textLength) ∧ (Overlap y q2.copy → y.textLength < q2.copy.textLength)) := by
    intro P r hr hn
    refine ⟨[], silent_returns ?_, by simp⟩
    unfold silent
    rw [hr]
    simp only [hn, Option.isNone_none]
  obtain ⟨n1, n2, n3, n4, hrun⟩ := run_two hrt hs hlen (a := q1.copy) (b := q2.copy) ⟨casualDateParser, by simp [mainParsers], _, hret, by simp⟩
    ⟨casualDateParser, by simp [mainParsers], _, hret, by simp⟩ hbef (by
      intro P hPm
      simp only [mainParsers, List.mem_cons, List.not_mem_nil, or_false] at hPm
      rcases hPm with rfl | rfl | rfl | rfl | rfl | rfl | rfl | rfl | rfl | rfl | rfl | rfl
      · exact quiet casualTime_pattern (no_casualTime hn.toFewDateWords key')
      · exact quiet deadline_pattern (ho _ (by simp))
      · exact ⟨[], silent_returns (by unfold silent; rw [dayOfWeek_pattern]), by simp⟩
      · refine ⟨_, hret, fun y hy => ?_⟩
        simp only [List.mem_cons, List.not_mem_nil, or_false] at hy
        tauto
      · exact quiet middleEndian_pattern (ho _ (by simp))
      · exact quiet timeLater_pattern (ho _ (by simp))
      · exact quiet monthName_pattern (ho _ (by simp))
      · exact quiet timeAgo_pattern (ho _ (by simp))
      · exact quiet timeExpr_pattern (ho _ (by simp))
      · exact quiet iso_pattern (ho _ (by simp))
      · exact quiet holiday_pattern (ho _ (by simp))
      · exact quiet week_pattern (ho _ (by simp)))
  refine ⟨q1.copy, q2.copy, ⟨n1, n2, n3, n4, hbef⟩, hrun, ⟨f1, f2, f3, f4⟩, ⟨g1, g2, g3, g4⟩, ?_⟩
  have hslice : slice (toLower X) (stop q1.copy) q2.copy.index = a2 := by
    have h1 : stop q1.copy = mt1.stop := by rw [e1]; omega
    unfold slice
    rw [h1, i2, ← hRd, hR, show mt1.stop + mt2.start - mt1.stop = a2.length by omega, List.append_assoc, List.take_left]
  unfold Joined
  rw [hslice]
  constructor
  · rintro ⟨k, hk, hi⟩
    exact ⟨k, hk, hi.trans (by rw [← ha2]; exact ⟨b1, [], by simp⟩)⟩
  · rintro ⟨k, hk, hi⟩
    obtain ⟨k0, kn⟩ := joinWords_solid k hk
    exact ⟨k, hk, infix_after_blanks k0 kn hb1 (by rw [ha2]; exact hi)⟩

/-- **C94 (a range).** Two of the words `now`, `today`, `tonight`, `tomorrow`, `tmr` and `yesterday` (or the same one twice), in any letter case, with any text before, between and after them
that has no digits and no other words for dates and times, and no letter, digit or `_` beside them: if `and`, `to`, `through` or `-` occurs between them, even inside a word, then the program prints
the range from the first moment to the second, or from the first to itself if the second is earlier. -/
theorem c94_joined_days_are_a_range (rt : Rt) (hrt : Rt.Defined rt) (sort : List PResult → List PResult) (hs : Sorts sort) (ref : PTime) (x t u : DateTime) (hx : RefReads ref x)
    (p v1 a v2 s : Text) (h1 : MomentNamed x (toLower v1) t) (ht : t.Valid) (h2 : MomentNamed x (toLower v2) u) (hu : u.Valid)
    (hps : StandsApart p a) (has : StandsApart a s) (ha : a ≠ []) (hn : NoDateWordsBut [toLower v1, toLower v2] (p ++ v1 ++ a ++ v2 ++ s))
    (hno : ∀ w ∈ [toLower v1, toLower v2], ¬ WholeWord w (toLower p) ∧ ¬ WholeWord w (toLower a) ∧ ¬ WholeWord w (toLower s))
    (hlen : (p ++ v1 ++ a ++ v2 ++ s).length < 4294967296) (hj : ∃ k ∈ joinWords, k <:+: toLower a) :
    mainRun rt sort (p ++ v1 ++ a ++ v2 ++ s) ref = .ok (foundLine ++ t.format ++ txt!" - " ++ (if instant t ≤ instant u then u else t).format) := by
  obtain ⟨r1, r2, ⟨n1, n2, n3, n4, n5⟩, hrun, ⟨f1, f2, f3, f4⟩, ⟨g1, g2, g3, g4⟩, hjoin⟩ := two_days hrt hs hx h1 ht h2 hu hps has ha hn hno hlen
  have nt : ∀ {r : PResult}, (∀ t, r.getTag t = true → t = .casualDate) → ∀ k, k ≠ .casualDate → r.getTag k = false := fun hr k hk => by
    cases hg : PResult.getTag _ k with
    | false => rfl
    | true => exact absurd (hr k hg) hk
  exact prints_joined n1 n2 n3 n4 n5 hrun (nt f4 _ (by decide)) (nt g4 _ (by decide)) (nt f4 _ (by decide)) (nt g4 _ (by decide)) f2 g2 f3 g3 (hjoin.2 hj) ht hu f1 g1

/-- **C94 (no range).** In the same texts, if none of `and`, `to`, `through` and `-` occurs between the two words, then the program prints the first moment alone. -/
theorem c94_first_of_two_days_is_printed (rt : Rt) (hrt : Rt.Defined rt) (sort : List PResult → List PResult) (hs : Sorts sort) (ref : PTime) (x t u : DateTime) (hx : RefReads ref x)
    (p v1 a v2 s : Text) (h1 : MomentNamed x (toLower v1) t) (ht : t.Valid) (h2 : MomentNamed x (toLower v2) u) (hu : u.Valid)
    (hps : StandsApart p a) (has : StandsApart a s) (ha : a ≠ []) (hn : NoDateWordsBut [toLower v1, toLower v2] (p ++ v1 ++ a ++ v2 ++ s))
    (hno : ∀ w ∈ [toLower v1, toLower v2], ¬ WholeWord w (toLower p) ∧ ¬ WholeWord w (toLower a) ∧ ¬ WholeWord w (toLower s))
    (hlen : (p ++ v1 ++ a ++ v2 ++ s).length < 4294967296) (hj : ∀ k ∈ joinWords, ¬ k <:+: toLower a) :
    mainRun rt sort (p ++ v1 ++ a ++ v2 ++ s) ref = .ok (foundLine ++ t.format) := by
  obtain ⟨r1, r2, ⟨n1, n2, n3, n4, n5⟩, hrun, ⟨f1, f2, f3, f4⟩, ⟨g1, g2, g3, g4⟩, hjoin⟩ := two_days hrt hs hx h1 ht h2 hu hps has ha hn hno hlen
  have nt : ∀ {r : PResult}, (∀ t, r.getTag t = true → t = .casualDate) → ∀ k, k ≠ .casualDate → r.getTag k = false := fun hr k hk => by
    cases hg : PResult.getTag _ k with
    | false => rfl
    | true => exact absurd (hr k hg) hk
  exact prints_separate n1 n2 n3 n4 n5 hrun (nt f4 _ (by decide)) (nt g4 _ (by decide)) (nt f4 _ (by decide)) f2 g2 f3 (fun h => by
    obtain ⟨k, hk, hi⟩ := hjoin.1 h
    exact hj k hk hi) ht f1

/-! ## The conditions can be met, and are needed -/

/-- Samples: what stands before, the first word, what stands between, the second, what stands after; the moments. -/
def joinedDays : List ((Text × Text × Text × Text × Text) × DateTime × DateTime) :=
  [((txt!"from ", txt!"today", txt!" to ", txt!"tomorrow", txt!""), ⟨2019, 3, 15, 0, 0, 0⟩, ⟨2019, 3, 16, 0, 0, 0⟩),
   ((txt!"The shop is closed ", txt!"Yesterday", txt!" (rain), and it opens ", txt!"TOMORROW", txt!", I hope!"), ⟨2019, 3, 14, 14, 0, 0⟩, ⟨2019, 3, 16, 0, 0, 0⟩),
   ((txt!"", txt!"tomorrow", txt!" - not ", txt!"tonight", txt!" in rome"), ⟨2019, 3, 16, 0, 0, 0⟩, ⟨2019, 3, 15, 22, 0, 0⟩),
   ((txt!"", txt!"now", txt!" I stand ", txt!"now", txt!""), ⟨2019, 3, 15, 14, 0, 0⟩, ⟨2019, 3, 15, 14, 0, 0⟩)]

def separateDays : List ((Text × Text × Text × Text × Text) × DateTime × DateTime) :=
  [((txt!"", txt!"today", txt!" or ", txt!"tomorrow", txt!"?"), ⟨2019, 3, 15, 0, 0, 0⟩, ⟨2019, 3, 16, 0, 0, 0⟩),
   ((txt!"We met ", txt!"YESTERDAY", txt!", will we meet ", txt!"Tonight", txt!" and sing?"), ⟨2019, 3, 14, 14, 0, 0⟩, ⟨2019, 3, 15, 22, 0, 0⟩)]

theorem sample_moments {w : Text} {z : DateTime} (h : (w, z) ∈ [(txt!"now", DateTime.mk 2019 3 15 14 0 0), (txt!"today", ⟨2019, 3, 15, 0, 0, 0⟩), (txt!"tonight", ⟨2019, 3, 15, 22, 0, 0⟩),
      (txt!"tomorrow", ⟨2019, 3, 16, 0, 0, 0⟩), (txt!"yesterday", ⟨2019, 3, 14, 14, 0, 0⟩)]) :
    MomentNamed ⟨2019, 3, 15, 14, 0, 0⟩ w z ∧ z.Valid := by
  simp only [List.mem_cons, Prod.mk.injEq, List.not_mem_nil, or_false] at h
  rcases h with ⟨rfl, rfl⟩ | ⟨rfl, rfl⟩ | ⟨rfl, rfl⟩ | ⟨rfl, rfl⟩ | ⟨rfl, rfl⟩
  · exact ⟨.now, by unfold DateTime.Valid; decide⟩
  · exact ⟨.day (x := ⟨2019, 3, 15, 14, 0, 0⟩) (by simp) .today, by unfold DateTime.Valid; decide⟩
  · exact ⟨.tonight, by unfold DateTime.Valid; decide⟩
  · exact ⟨.day (x := ⟨2019, 3, 15, 14, 0, 0⟩) (by simp) (.tomorrow (x := ⟨2019, 3, 15, 14, 0, 0⟩) (by simp) (by decide)), by unfold DateTime.Valid; decide⟩
  · exact ⟨.yesterday (by decide), by unfold DateTime.Valid; decide⟩

/-- The conditions, checked. -/
def twoDaysChecks (p v1 a v2 s : Text) : Bool :=
  !p.getLast?.any isWordB && !a.head?.any isWordB && !a.getLast?.any isWordB && !s.head?.any isWordB && !a.isEmpty &&
    (dateWordChecks (p ++ v1 ++ a ++ v2 ++ s) [toLower v1, toLower v2]).all id &&
    [toLower v1, toLower v2].all fun w => !occursB true w true (toLower p) && !occursB true w true (toLower a) && !occursB true w true (toLower s)

theorem twoDaysChecks_sound {p v1 a v2 s : Text} (h : twoDaysChecks p v1 a v2 s = true) :
    StandsApart p a ∧ StandsApart a s ∧ a ≠ [] ∧ NoDateWordsBut [toLower v1, toLower v2] (p ++ v1 ++ a ++ v2 ++ s) ∧
    ∀ w ∈ [toLower v1, toLower v2], ¬ WholeWord w (toLower p) ∧ ¬ WholeWord w (toLower a) ∧ ¬ WholeWord w (toLower s) := by
  unfold twoDaysChecks at h
  simp only [Bool.and_eq_true, Bool.not_eq_true'] at h
  obtain ⟨⟨⟨⟨⟨⟨h1, h2⟩, h3⟩, h4⟩, h5⟩, h6⟩, h7⟩ := h
  have edge : ∀ {o : Option Nat}, o.any isWordB = false → ∀ c, o = some c → ¬ WordChar c := by
    rintro o ho c rfl
    rw [wordChar_iff]; simpa using ho
  refine ⟨⟨edge h1, edge h2⟩, ⟨edge h3, edge h4⟩, (by rintro rfl; cases h5), dateWordChecks_sound h6, fun w hw => ?_⟩
  have := List.all_eq_true.1 h7 w hw
  simp only [Bool.and_eq_true, Bool.not_eq_true'] at this
  exact ⟨occursB_sound this.1.1, occursB_sound this.1.2, occursB_sound this.2⟩

/-- **C94: the conditions are met** in ordinary texts, and the program prints the range, or the first moment. -/
theorem c94_conditions_are_met_joined : ∀ z ∈ joinedDays, match z with
    | ((p, v1, a, v2, s), t, u) =>
      mainRun (Rt.usual 0) sortKeep (p ++ v1 ++ a ++ v2 ++ s) afternoonRef = .ok (foundLine ++ t.format ++ txt!" - " ++ (if instant t ≤ instant u then u else t).format) := by
  have hck : ∀ z ∈ joinedDays, match z with
    | ((p, v1, a, v2, s), t, u) => twoDaysChecks p v1 a v2 s = true ∧ (∀ y ∈ [(toLower v1, t), (toLower v2, u)], y ∈ [(txt!"now", DateTime.mk 2019 3 15 14 0 0), (txt!"today", ⟨2019, 3, 15, 0, 0, 0⟩),
        (txt!"tonight", ⟨2019, 3, 15, 22, 0, 0⟩), (txt!"tomorrow", ⟨2019, 3, 16, 0, 0, 0⟩), (txt!"yesterday", ⟨2019, 3, 14, 14, 0, 0⟩)]) ∧
        (∃ k ∈ joinWords, k <:+: toLower a) ∧ (p ++ v1 ++ a ++ v2 ++ s).length < 4294967296 := by decide +kernel
  rintro ⟨⟨p, v1, a, v2, s⟩, t, u⟩ hz
  obtain ⟨h1, h2, h3, h4⟩ := hck _ hz
  obtain ⟨a1, a2, a3, a4, a5⟩ := twoDaysChecks_sound h1
  obtain ⟨d1, d2⟩ := sample_moments (h2 (toLower v1, t) (by simp))
  obtain ⟨d3, d4⟩ := sample_moments (h2 (toLower v2, u) (by simp))
  exact c94_joined_days_are_a_range _ usual_defined _ sortKeep_sorts _ _ t u afternoonRef_reads p v1 a v2 s d1 d2 d3 d4 a1 a2 a3 a4 a5 h4 h3

theorem c94_conditions_are_met_separate : ∀ z ∈ separateDays, match z with
    | ((p, v1, a, v2, s), t, _) => mainRun (Rt.usual 0) sortKeep (p ++ v1 ++ a ++ v2 ++ s) afternoonRef = .ok (foundLine ++ t.format) := by
  have hck : ∀ z ∈ separateDays, match z with
    | ((p, v1, a, v2, s), t, u) => twoDaysChecks p v1 a v2 s = true ∧ (∀ y ∈ [(toLower v1, t), (toLower v2, u)], y ∈ [(txt!"now", DateTime.mk 2019 3 15 14 0 0), (txt!"today", ⟨2019, 3, 15, 0, 0, 0⟩),
        (txt!"tonight", ⟨2019, 3, 15, 22, 0, 0⟩), (txt!"tomorrow", ⟨2019, 3, 16, 0, 0, 0⟩), (txt!"yesterday", ⟨2019, 3, 14, 14, 0, 0⟩)]) ∧
        (∀ k ∈ joinWords, ¬ k <:+: toLower a) ∧ (p ++ v1 ++ a ++ v2 ++ s).length < 4294967296 := by decide +kernel
  rintro ⟨⟨p, v1, a, v2, s⟩, t, u⟩ hz
  obtain ⟨h1, h2, h3, h4⟩ := hck _ hz
  obtain ⟨a1, a2, a3, a4, a5⟩ := twoDaysChecks_sound h1
  obtain ⟨d1, d2⟩ := sample_moments (h2 (toLower v1, t) (by simp))
  obtain ⟨d3, d4⟩ := sample_moments (h2 (toLower v2, u) (by simp))
  exact c94_first_of_two_days_is_printed _ usual_defined _ sortKeep_sorts _ _ t u afternoonRef_reads p v1 a v2 s d1 d2 d3 d4 a1 a2 a3 a4 a5 h4 h3

/-- **C94: the conditions are needed.** With a clock time in the text, or a third day, something else may be printed; the words joined to one word are not read at all. -/
theorem c94_conditions_are_needed :
    mainRun (Rt.usual 0) sortKeep txt!"from today at 9 to tomorrow" afternoonRef ≠
      .ok (foundLine ++ (DateTime.mk 2019 3 15 0 0 0).format ++ txt!" - " ++ (DateTime.mk 2019 3 16 0 0 0).format) ∧
    mainRun (Rt.usual 0) sortKeep txt!"today_to_tomorrow" afternoonRef = .ok invalidLine := by
  decide +kernel

end Chrono.Props
