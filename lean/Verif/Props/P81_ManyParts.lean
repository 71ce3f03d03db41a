import Verif.Props.P80_DaysThenMonths

/-! # C102: two or more parts of the day in a text

Each mention has a date that is not certain and an hour that is not certain, so the first counts as the date and the second as the time, and the program merges them:
it prints the hour of the second. -/

namespace Chrono.Props

open Chrono Chrono.Spec Chrono.Boost

/-- What is read from any part of the day: the hour, and the minute of the reference time. -/
theorem parts_ok {ref : PTime} {x : DateTime} (hx : RefReads ref x) {w : Text} (hw : w ∈ partsOfDay) :
    ∃ h < 24, ((∀ n, (w, n) ∈ partHours → h = n) ∧ ∃ c, partComps w ref = .ok c ∧ DateIs c x.date ∧ TimeIs c h x.minute 0 ∧ ∀ k, (c.known k).1 = false) := by
  by_cases hn : w = txt!"noon"
  · obtain ⟨e1, e2, e3, e4⟩ := Date.year_of_ymd hx.date
    have hmn := hx.minutes
    obtain ⟨wd, e5⟩ : ∃ wd, ref.date.dayOfWeek = .ok wd := ⟨_, e4⟩
    subst hn
    refine ⟨12, by decide, fun n hn => absurd hn (by simp [partHours]), ?_⟩
    unfold partComps
    rw [e1, e2, e3, e5]
    simp only [Out.bind_ok, Out.pure_eq]
    repeat (first | rw [if_pos (by decide)] | rw [if_neg (by decide)])
    refine ⟨_, rfl, ⟨rfl, rfl, rfl⟩, ⟨rfl, ?_, rfl⟩, fun k => by cases k <;> rfl⟩
    rw [← hmn]; rfl
  · have key : ∀ w ∈ partsOfDay, w ≠ txt!"noon" → ∃ z ∈ partHours, z.1 = w ∧ z.2 < 24 ∧ ∀ y ∈ partHours, y.1 = w → y.2 = z.2 := by decide
    obtain ⟨⟨w', h⟩, hz, rfl, hh, hu⟩ := key w hw hn
    exact ⟨h, hh, fun n hm => (hu _ hm rfl).symm, partComps_ok hx hz⟩

theorem parts_n : ∀ w ∈ partsOfDay, 110 ∈ w := by decide

/-- The first name of a part of the day is what the pattern finds first. -/
theorem casualTime_first {T P S w : Text} (hw : w ∈ partsOfDay) (hTl : toLower T = T) (hT : T = P ++ w ++ S) (hps : StandsApart P S)
    (hP : ∀ k ∈ partsOfDay, ¬ WholeWord k P) (hthis : ∀ k ∈ partsOfDay, ¬ WholeWord (txt!"this" ++ k) T) :
    ∃ mt pre, Ast.casualTime.search T = some mt ∧ mt.str 4 = w ∧ mt.str 0 = pre ++ w ∧ (Blanks pre ∨ ∃ b, Blanks b ∧ pre = txt!"this" ++ b) ∧
      P = T.take mt.start ++ pre ∧ T.drop mt.stop = S := by
  obtain ⟨w0, wall, -, -⟩ := parts_word w hw
  obtain ⟨th, bl, pa, he, hfree, -, -, -, -, -, -, hfull⟩ := casualTime_shape
  have hfr : framed Ast.casualTime = true := by rw [he]; rfl
  obtain ⟨s', hrel⟩ := framed_rel (i := 1) (j := 2) (k := 5) hfree (lang_of_fullMatch (hfull w hw)) hps w0 wall
  rw [← he, ← hT] at hrel
  obtain ⟨mt, hm, hle⟩ := search_before (by rw [hT]; simp) hrel
  obtain ⟨w', pre, hu, h4, hw', hpre⟩ := casualTime_written hTl hm
  obtain ⟨e1, e2⟩ := framed_word hfr hm
  obtain ⟨-, -, hsplit⟩ := framed_edges hfr hm
  obtain ⟨w0', wall', -, -⟩ := parts_word w' hw'
  have htl : (T.take mt.start).length = mt.start := by
    rw [List.length_take, hT]; simp only [List.length_append]; omega
  have hz : ∀ c, (T.drop mt.stop).head? = some c → ¬ WordChar c := by
    refine e2 (w'.getLast w0') ?_ (wall' _ (List.getLast_mem _))
    rw [hu, List.getLast?_append, List.getLast?_eq_some_getLast w0']; rfl
  have ha : ∀ c, (T.take mt.start ++ pre).getLast? = some c → ¬ WordChar c := by
    rcases hpre with hb | ⟨b, hb, rfl⟩
    · cases hb0 : pre.getLast? with
      | some c => intro x hx; rw [List.getLast?_append, hb0] at hx; cases hx; exact blank_notWord (hb _ (List.mem_of_getLast? hb0))
      | none =>
        rw [List.getLast?_eq_none_iff] at hb0
        subst hb0
        rw [List.append_nil]
        obtain ⟨c, v, rfl⟩ := List.exists_cons_of_ne_nil w0'
        exact e1 c v hu (wall' c (by simp))
    · cases hb0 : b.getLast? with
      | some c =>
        intro x hx
        rw [List.getLast?_append, List.getLast?_append, hb0] at hx; cases hx; exact blank_notWord (hb _ (List.mem_of_getLast? hb0))
      | none =>
        rw [List.getLast?_eq_none_iff] at hb0
        subst hb0
        exfalso
        refine hthis w' hw' ⟨T.take mt.start, _, ?_, fun _ => e1 116 (txt!"his" ++ w') (by rw [hu]; rfl) (by decide), fun _ => hz⟩
        rw [hu] at hsplit
        simpa only [List.append_assoc, List.nil_append] using hsplit
  have hs : (T.take mt.start ++ pre) ++ w' ++ T.drop mt.stop = P ++ w ++ S := by
    rw [hu] at hsplit
    rw [← hT]; simpa only [List.append_assoc] using hsplit.symm
  have h1 := wordAt_of w0' wall' ha hz
  have h2 := wordAt_of w0 wall hps.1 hps.2
  rw [hs] at h1
  have key : w' = w ∧ T.drop mt.stop = S ∧ T.take mt.start ++ pre = P := by
    rcases h1.cases h2 with h | ⟨h, h'⟩ | h
    · exfalso
      have hq : P.length + w.length ≤ (T.take mt.start ++ pre).length := by omega
      obtain ⟨d, hd⟩ : P ++ w <+: T.take mt.start ++ pre := by
        refine List.prefix_of_prefix_length_le (l₃ := P ++ w ++ S) ⟨S, rfl⟩ ⟨w' ++ T.drop mt.stop, by rw [← hs]; simp⟩ ?_
        rw [List.length_append]; omega
      obtain ⟨t, ht⟩ : T.take mt.start <+: P := by
        refine List.prefix_of_prefix_length_le (l₃ := T.take mt.start ++ pre) ⟨_, rfl⟩ ⟨w ++ d, by rw [← hd]; simp⟩ ?_
        omega
      rw [← ht] at hd
      simp only [List.append_assoc, List.append_cancel_left_eq] at hd
      have hmem : 110 ∈ pre := by rw [← hd]; simp [parts_n w hw]
      rcases hpre with h5 | ⟨b, h5, rfl⟩
      · have := h5 110 hmem; unfold Blank at this; omega
      · rcases List.mem_append.1 hmem with h6 | h6
        · exact absurd h6 (by decide)
        · have := h5 110 h6; unfold Blank at this; omega
    · obtain ⟨a1, a2⟩ := List.append_inj (List.append_inj hs (by simp only [List.length_append] at h h' ⊢; omega)).1 (by omega)
      exact ⟨a2, (List.append_inj hs (by simp only [List.length_append] at h h' ⊢; omega)).2, a1⟩
    · exfalso
      have h : (T.take mt.start ++ pre).length + w'.length ≤ P.length := by omega
      obtain ⟨d, hd⟩ : T.take mt.start ++ pre ++ w' <+: P := by
        refine List.prefix_of_prefix_length_le (l₃ := P ++ w ++ S) ⟨_, hs⟩ ⟨w ++ S, by simp⟩ ?_
        rw [List.length_append]; omega
      refine hP w' hw' ⟨T.take mt.start ++ pre, d, hd.symm, fun _ => ha, fun _ c hc => hz c ?_⟩
      rw [← hd] at hs
      simp only [List.append_assoc, List.append_cancel_left_eq] at hs
      rw [hs, List.head?_append, hc]; rfl
  exact ⟨mt, pre, hm, by rw [h4, key.1], by rw [hu, key.1], hpre, key.2.2.symm, key.2.1⟩

/-- No name of a part of the day: the pattern finds nothing. -/
theorem casualTime_none {R : Text} (hRl : toLower R = R) (parts : ∀ k ∈ partsOfDay, ¬ WholeWord k R) (hthis : ∀ k ∈ partsOfDay, ¬ WholeWord (txt!"this" ++ k) R) :
    Ast.casualTime.search R = none := by
  rw [← hRl]
  refine Re.search_needs casualTime_needs (by decide +kernel) (not_whole fun k hk => ?_) (by simp)
  rw [hRl]
  rcases List.mem_append.1 hk with hk | hk
  · exact parts k hk
  · obtain ⟨v, hv, rfl⟩ := List.mem_map.1 hk
    exact hthis v hv

/-- What the parser makes of a match of a part of the day, at a place of the text. -/
theorem part_result {rt : Rt} {ref : PTime} {x : DateTime} (hx : RefReads ref x) {w tx : Text} (hw : w ∈ partsOfDay) {mt : Match} (h4 : mt.str 4 = w)
    {idx : Nat} (hidx : idx < 4294967296) :
    ∃ r, ∃ h < 24, (∀ n, (w, n) ∈ partHours → h = n) ∧ (∀ g, casualTimeParser.extract rt g tx mt ref idx = .ok (r, g)) ∧ r.hasPossibleDates = true ∧ r.copy.index = idx ∧ stop r.copy = idx + (mt.str 0).length ∧
      DateIs r.copy.startDate x.date ∧ TimeIs r.copy.startDate h x.minute 0 ∧ NoTime r.copy.startDate ∧ isTimeOnly r.copy = true ∧ isDateOnly r.copy = true ∧ r.copy.hasEnd = false ∧
      ∀ t, r.copy.getTag t = true → t = .casualTime := by
  obtain ⟨h, hh, hu, c, hcm, c1, c2, c3⟩ := parts_ok hx hw
  have hxx := fun g => part_extract (rt := rt) (g := g) (tx := tx) (ref := ref) (idx := idx) hw h4
  simp only [hcm, Out.bind_ok] at hxx
  have hi : PResult.toU32 idx = idx := by unfold PResult.toU32; omega
  obtain ⟨r, hr⟩ : ∃ r, r = ({ PResult.mk' ref idx (mt.str 0) with startDate := c } : PResult).setTag .casualTime := ⟨_, rfl⟩
  simp only [← hr] at hxx
  have r1 : r.index = idx := by rw [hr]; exact hi
  have r2 : r.text = mt.str 0 := by rw [hr]; rfl
  have r3 : r.startDate = c := by rw [hr]; rfl
  have r4 : r.hasEnd = false := by rw [hr]; rfl
  have hcert : ∀ k, c.certain k = false := fun k => c3 _
  refine ⟨r, h, hh, hu, fun g => pureExtract_ok (hxx g), ?_, ?_, ?_, ?_, ?_, ?_, ?_, ?_, r4, ?_⟩
  · refine hasPossibleDates_of_year ?_
    rw [r3, c1.1]
    have := hx.valid.1.1
    simp only [DateTime.date]
    omega
  · rw [copy_index, r1]
  · unfold stop PResult.textLength
    rw [copy_index, copy_text, r1, r2]
  · show DateIs r.startDate _
    rw [r3]; exact c1
  · show TimeIs r.startDate _ _ _
    rw [r3]; exact c2
  · show NoTime r.startDate
    rw [r3]; exact ⟨hcert _, c3 _, c3 _⟩
  · show (!r.startDate.certain .month && !r.startDate.certain .mday) = true
    rw [r3, hcert, hcert]; rfl
  · show (!r.startDate.certain .hour) = true
    rw [r3, hcert]; rfl
  · intro t ht
    have : r.getTag t = true := ht
    rw [hr] at this
    by_contra hne
    unfold PResult.getTag PResult.setTag at this
    simp [hne, PResult.mk'] at this

/-! ## Any number of mentions -/

/-- What every mention of a part of the day has in common. -/
def IsPart (x : DateTime) (r : PResult) : Prop :=
  (∃ h < 24, TimeIs r.startDate h x.minute 0) ∧ DateIs r.startDate x.date ∧ NoTime r.startDate ∧ isTimeOnly r = true ∧ isDateOnly r = true ∧ r.hasEnd = false ∧
    ∀ t, r.getTag t = true → t = .casualTime

theorem part_tag {x : DateTime} {r : PResult} (h : IsPart x r) {k : Tag} (hk : k ≠ .casualTime) : r.getTag k = false := by
  cases hg : r.getTag k with
  | false => rfl
  | true => exact absurd (h.2.2.2.2.2.2 k hg) hk

theorem part_noZone {x : DateTime} {text : Text} {r : PResult} (h : IsPart x r) : NoZone text r := by
  intro abbr off ht
  rw [part_tag h (by decide)] at ht
  cases ht

theorem part_reads {x : DateTime} (hv : x.Valid) {r : PResult} (h : IsPart x r) : ∃ t : DateTime, t.Valid ∧ Reads r.startDate t := by
  obtain ⟨⟨n, hn, t1, t2, t3⟩, ⟨d1, d2, d3⟩, -⟩ := h
  exact ⟨⟨x.year, x.month, x.day, n, x.minute, 0⟩, ⟨hv.1, hn, hv.2.2.1, (by decide : (0 : Nat) < 60)⟩, d1, d2, d3, t1, t2, t3⟩

theorem part_tz {x : DateTime} {text : Text} {r : PResult} (h : IsPart x r) : IsPart x (tzOne Ast.tzName text r) := by
  obtain ⟨r', e, -, -, i3, i4, -, i6, -⟩ := tz_same (text := text) (part_noZone h)
  rw [e]
  obtain ⟨h1, h2, h3, h4, h5, h6, h7⟩ := h
  refine ⟨by rw [i3]; exact h1, by rw [i3]; exact h2, by rw [i3]; exact h3, ?_, ?_, i4.trans h6, fun t ht => h7 t (by rw [← i6]; exact ht)⟩
  · unfold isTimeOnly at *; rw [i3]; exact h4
  · unfold isDateOnly at *; rw [i3]; exact h5

/-- The date/time refiner merges them two by two, and what it makes are dates. -/
theorem mdt_parts_total {x : DateTime} (hv : x.Valid) {text : Text} : ∀ (n : Nat) (l : List PResult) (q : PResult), l.length ≤ n → (∀ y ∈ q :: l, IsPart x y ∧ NonEmpty y ∧ Inside text y) → l.Pairwise Before →
    ∃ out, mdtLoop text q l = .ok out ∧ ∀ y ∈ out, Inside text y ∧ ∃ t : DateTime, t.Valid ∧ Reads y.startDate t := by
  intro n
  have last : ∀ q : PResult, (IsPart x q ∧ NonEmpty q ∧ Inside text q) → ∀ y ∈ (if q.isEmpty then [] else [q]), Inside text y ∧ ∃ t : DateTime, t.Valid ∧ Reads y.startDate t := by
    intro q hq y hy
    split at hy
    · cases hy
    · rw [List.mem_singleton.1 hy]; exact ⟨hq.2.2, part_reads hv hq.1⟩
  induction n with
  | zero =>
    intro l q hl hp _
    cases l <;> [skip; simp at hl]
    unfold mdtLoop; exact ⟨_, rfl, last q (hp q (by simp))⟩
  | succ n ih =>
    intro l q hl hp hpw
    match l, hl, hp, hpw with
    | [], _, hp, _ => unfold mdtLoop; exact ⟨_, rfl, last q (hp q (by simp))⟩
    | [a], _, hp, _ => unfold mdtLoop; exact ⟨_, rfl, last q (hp q (by simp))⟩
    | a :: b :: rest, hl, hp, hpw =>
      obtain ⟨ha, na, ia⟩ := hp a (by simp)
      obtain ⟨hb, nb, ib⟩ := hp b (by simp)
      have hab := (List.pairwise_cons.1 hpw).1 b (by simp)
      obtain ⟨h, hh, htime⟩ := hb.1
      obtain ⟨m, hm, -, -, -, -, m5, m6⟩ := mdtStep_date_time na ia ib hab (part_tag ha (by decide)) (part_tag hb (by decide)) ha.2.2.2.2.2.1 hb.2.2.2.2.2.1
        (.inl ⟨rfl, rfl⟩) ha.2.2.1 hb.2.2.2.1 (y := x.year) (mo := x.month) (da := x.day) ha.2.1 htime
      unfold mdtLoop
      rw [hm]
      simp only [Out.bind_ok]
      obtain ⟨out, ho, hall⟩ := ih rest (rest.headD b) (by simp at hl; omega) (fun y hy => by
        rcases List.mem_cons.1 hy with rfl | hy
        · cases rest with
          | nil => exact hp _ (by simp)
          | cons c rest => exact hp _ (by simp)
        · exact hp y (by simp [hy])) (List.pairwise_cons.1 (List.pairwise_cons.1 hpw).2).2
      rw [ho]
      refine ⟨_, rfl, fun y hy => ?_⟩
      rcases List.mem_cons.1 hy with rfl | hy
      · exact ⟨m6, ⟨x.year, x.month, x.day, h, x.minute, 0⟩, ⟨hv.1, hh, hv.2.2.1, (by decide : (0 : Nat) < 60)⟩, m5⟩
      · exact hall y hy

theorem afterOverlaps_parts {x : DateTime} (hv : x.Valid) {text : Text} {l : List PResult} (hp : ∀ y ∈ l, IsPart x y ∧ NonEmpty y ∧ Inside text y) (hpw : l.Pairwise Before) :
    ∃ out, afterOverlaps l text = .ok out := by
  unfold afterOverlaps
  rw [tz_list]
  simp only [Out.bind_ok]
  have hp' : ∀ y ∈ l.map (tzOne Ast.tzName text), IsPart x y ∧ NonEmpty y ∧ Inside text y := by
    intro y hy
    obtain ⟨z, hz, rfl⟩ := List.mem_map.1 hy
    obtain ⟨h1, h2, h3⟩ := hp z hz
    obtain ⟨r', e, i1, i2, -, -, -, -, i7⟩ := tz_same (text := text) (part_noZone h1)
    refine ⟨part_tz h1, ?_, ?_⟩
    · rw [e]; unfold NonEmpty PResult.textLength at *; rw [i2]; exact h2
    · rw [e]; unfold Inside at *; rw [i7]; exact h3
  have hpw' : (l.map (tzOne Ast.tzName text)).Pairwise Before := by
    rw [List.pairwise_map]
    refine List.Pairwise.imp_of_mem (fun {y z} hy hz h => ?_) hpw
    obtain ⟨y', e, -, -, -, -, -, -, i7⟩ := tz_same (text := text) (part_noZone (hp y hy).1)
    unfold Before at *
    rw [(tzOne_keeps text z).1, e, i7]
    exact h
  generalize l.map (tzOne Ast.tzName text) = k at *
  obtain ⟨out, ho, hall⟩ : ∃ out, mdtRefine k text = .ok out ∧ ∀ y ∈ out, Inside text y ∧ ∃ t : DateTime, t.Valid ∧ Reads y.startDate t := by
    match k, hp', hpw' with
    | [], _, _ => exact ⟨[], rfl, by simp⟩
    | [a], hp', _ => exact ⟨[a], rfl, fun y hy => by rw [List.mem_singleton.1 hy]; exact ⟨(hp' a (by simp)).2.2, part_reads hv (hp' a (by simp)).1⟩⟩
    | a :: b :: rest, hp', hpw' =>
      exact mdt_parts_total hv _ (a :: b :: rest) b (Nat.le_refl _) (fun y hy => by
        rcases List.mem_cons.1 hy with rfl | hy
        exacts [hp' _ (by simp), hp' y hy]) hpw'
  rw [ho]
  simp only [Out.bind_ok]
  match out, hall with
  | [], _ => exact ⟨_, rfl⟩
  | [a], _ => exact ⟨_, rfl⟩
  | a :: b :: rest, hall => exact mdr_dates_total _ (a :: b :: rest) a (Nat.le_refl _) (fun y hy => (hall y hy).1) (fun y hy => (hall y hy).2)

/-! ## What the parser finds -/

theorem begun_after {T : Text} {k : Nat} (hb : Begun T k) {mt : Match} (hm : Ast.casualTime.search (T.drop k) = some mt) : Begun T (k + mt.stop) := by
  obtain ⟨th, bl, pa, he, -⟩ := casualTime_shape
  have hfr : framed Ast.casualTime = true := by rw [he]; rfl
  intro e w hw ho
  rw [← List.drop_drop] at ho
  exact hb e w hw (occurs_after_match hfr hm hw ho)

/-- The parser never fails, and returns nothing but mentions of parts of the day. -/
theorem parts_scan {rt : Rt} {ref : PTime} {x : DateTime} (hx : RefReads ref x) {T : Text} (hTl : toLower T = T)
    (hlen : T.length < 4294967296) {k : Nat} {g : Globals} {o : Out (List PResult × Globals)} (h : Scan rt casualTimeParser Ast.casualTime T ref k g o) :
    k ≤ T.length → ∃ rs g', o = .ok (rs, g') ∧ ∀ y ∈ rs, k ≤ y.index ∧ IsPart x y := by
  have extract : ∀ {k : Nat} {mt : Match}, k ≤ T.length → Ast.casualTime.search (T.drop k) = some mt → ∃ r : PResult,
      (∀ g, casualTimeParser.extract rt g (T.drop k) mt ref (k + mt.start) = .ok (r, g)) ∧ r.copy.index = k + mt.start ∧ IsPart x r.copy := by
    intro k mt hk hm
    obtain ⟨w, pre, hu, h4, hw, -⟩ := casualTime_written (drop_lower hTl k) hm
    have hp := match_pos casualTime_min hm
    rw [List.length_drop] at hp
    obtain ⟨r, h, hh, -, x1, -, x3, -, x5, x6, x7, x8, x9, x10, x11⟩ := part_result (rt := rt) (tx := T.drop k) hx hw h4 (idx := k + mt.start) (by omega)
    exact ⟨r, x1, x3, ⟨h, hh, x6⟩, x5, x7, x8, x9, x10, x11⟩
  induction h with
  | done h => intro _; exact ⟨[], _, rfl, by simp⟩
  | @step k g mt res g' out hs hx' hrest ih =>
    intro hk
    obtain ⟨r, x1, x2, x3⟩ := extract hk hs
    rw [x1 g] at hx'
    simp only [Out.ok.injEq, Prod.mk.injEq] at hx'
    obtain ⟨rfl, rfl⟩ := hx'
    have hp := match_pos casualTime_min hs
    rw [List.length_drop] at hp
    obtain ⟨rs, g2, rfl, hall⟩ := ih (by omega)
    refine ⟨_, _, rfl, fun y hy => ?_⟩
    have htl : ∀ y ∈ rs, k ≤ y.index ∧ IsPart x y := fun y hy => ⟨by have := (hall y hy).1; omega, (hall y hy).2⟩
    dsimp only at hy
    split at hy
    · rcases List.mem_cons.1 hy with rfl | hy
      · exact ⟨by rw [x2]; omega, x3⟩
      · exact htl y hy
    · exact htl y hy
  | fail hs hx' =>
    intro hk
    obtain ⟨r, x1, -⟩ := extract hk hs
    exact absurd (x1 _) (hx' _)

/-- The name of a part of the day where the parser goes on: it is the next mention. -/
theorem parts_next {rt : Rt} {ref : PTime} {x : DateTime} (hx : RefReads ref x) {T P w S : Text} (hTl : toLower T = T)
    (hlen : T.length < 4294967296) (hthis : ∀ k ∈ partsOfDay, ¬ WholeWord (txt!"this" ++ k) T) {k : Nat} {g : Globals} {o : Out (List PResult × Globals)}
    (h : Scan rt casualTimeParser Ast.casualTime T ref k g o) (hb : Begun T k) (hk : k ≤ T.length) {n : Nat} (hw : (w, n) ∈ partHours) (hT : T.drop k = P ++ w ++ S) (hps : StandsApart P S)
    (hP : ∀ v ∈ partsOfDay, ¬ WholeWord v P) :
    ∃ r rs g' g2 m, o = .ok (r :: rs, g') ∧ k ≤ r.index ∧ stop r = m ∧ m ≤ T.length ∧ T.drop m = S ∧ Begun T m ∧
      Scan rt casualTimeParser Ast.casualTime T ref m g2 (.ok (rs, g')) ∧ TimeIs r.startDate n x.minute 0 ∧ IsPart x r ∧ ∀ y ∈ rs, m ≤ y.index ∧ IsPart x y := by
  have hw' := (partHours_parts _ hw).1
  obtain ⟨mt, pre, hm, h4, hu, hpre, hP1, hS1⟩ := casualTime_first hw' (drop_lower hTl k) hT hps hP (fun v hv ho => hthis v hv (hb _ _ rfl ho))
  have hp := match_pos casualTime_min hm
  rw [List.length_drop] at hp
  have ok := Re.search_ok hm
  have z1 := ok.len
  unfold Match.length at z1
  obtain ⟨r, h', hh, hu', x1, x2, x3, x4, x5, x6, x7, x8, x9, x10, x11⟩ := part_result (rt := rt) (tx := T.drop k) hx hw' h4 (idx := k + mt.start) (by omega)
  obtain rfl := hu' n hw
  cases h with
  | done h => rw [hm] at h; cases h
  | fail hs hx' =>
    rw [hm] at hs; cases hs
    exact absurd (x1 _) (hx' _)
  | @step _ _ mt' res g' out hs hx' hrest =>
    rw [hm] at hs; cases hs
    rw [x1 g] at hx'
    simp only [Out.ok.injEq, Prod.mk.injEq] at hx'
    obtain ⟨rfl, rfl⟩ := hx'
    obtain ⟨rs, g2, rfl, hall⟩ := parts_scan hx hTl hlen hrest (by omega)
    exact ⟨r.copy, rs, g2, g, k + mt.stop, by simp [x2], by rw [x3]; omega, by rw [x4]; omega, by omega, by rw [← List.drop_drop]; exact hS1, begun_after hb hm, hrest, x6,
      ⟨⟨h', hh, x6⟩, x5, x7, x8, x9, x10, x11⟩, hall⟩

/-- In a text that names nothing but parts of the day, the mentions are those of one parser. -/
theorem parts_mentions {rt : Rt} {ref : PTime} {X : Text} (hn : NoDateWordsBut partsOfDay X) {rs : List PResult} (h : ParserReturns rt ref X casualTimeParser rs) :
    AllReturn rt ref X ∧ ∀ y, Mention rt ref X y ↔ y ∈ rs := by
  have ho := no_others hn (by decide)
  have quiet : ∀ {P : Parser} {r : Re}, P.pattern = some r → r.search (toLower X) = none → ParserReturns rt ref X P [] := by
    intro P r hr hn
    refine silent_returns ?_
    unfold silent
    rw [hr]
    simp only [hn, Option.isNone_none]
  have all : ∀ P ∈ mainParsers, ParserReturns rt ref X P [] ∨ P = casualTimeParser := by
    intro P hPm
    simp only [mainParsers, List.mem_cons, List.not_mem_nil, or_false] at hPm
    rcases hPm with rfl | rfl | rfl | rfl | rfl | rfl | rfl | rfl | rfl | rfl | rfl | rfl
    · exact .inr rfl
    · exact .inl (quiet deadline_pattern (ho _ (by simp)))
    · exact .inl (silent_returns (by unfold silent; rw [dayOfWeek_pattern]))
    · exact .inl (quiet casualDate_pattern (no_casualDate hn.toFewDateWords (by decide)))
    · exact .inl (quiet middleEndian_pattern (ho _ (by simp)))
    · exact .inl (quiet timeLater_pattern (ho _ (by simp)))
    · exact .inl (quiet monthName_pattern (ho _ (by simp)))
    · exact .inl (quiet timeAgo_pattern (ho _ (by simp)))
    · exact .inl (quiet timeExpr_pattern (ho _ (by simp)))
    · exact .inl (quiet iso_pattern (ho _ (by simp)))
    · exact .inl (quiet holiday_pattern (ho _ (by simp)))
    · exact .inl (quiet week_pattern (ho _ (by simp)))
  refine ⟨fun P hP => ?_, fun y => ⟨?_, fun hy => ⟨casualTimeParser, by simp [mainParsers], rs, h, hy⟩⟩⟩
  · rcases all P hP with h1 | rfl
    · exact ⟨_, h1⟩
    · exact ⟨_, h⟩
  · rintro ⟨P, hP, rs', h1, h2⟩
    rcases all P hP with h3 | rfl
    · rw [parserReturns_unique h1 h3] at h2; cases h2
    · rwa [parserReturns_unique h1 h] at h2

/-! ## The theorem -/

/-- **C102.** Two or more of the words `morning`, `afternoon`, `evening` and `night` (the same one twice, too), in any letter case, in any text that has no digits and no other words for dates
and times: if no letter, digit or `_` stands beside the first two and no `and`, `to`, `through` or `-` comes after the second, the program prints the hour of the second word on the day
of the reference time, whatever stands between the two (`morning or evening`, `from morning to evening`) and however many follow: the first is lost, and there is no range. -/
theorem c102_second_part_of_day_is_printed (rt : Rt) (hrt : Rt.Defined rt) (sort : List PResult → List PResult) (hs : Sorts sort) (ref : PTime) (x : DateTime) (hx : RefReads ref x)
    (p v1 a v2 s : Text) (h1 h2 : Nat) (hp1 : (toLower v1, h1) ∈ partHours) (hp2 : (toLower v2, h2) ∈ partHours)
    (hps : StandsApart p a) (has : StandsApart a s) (ha : a ≠ []) (hn : NoDateWordsBut partsOfDay (p ++ v1 ++ a ++ v2 ++ s))
    (hno : ∀ w ∈ partsOfDay, ¬ WholeWord w (toLower p) ∧ ¬ WholeWord w (toLower a))
    (hlen : (p ++ v1 ++ a ++ v2 ++ s).length < 4294967296) (hj : ∀ k ∈ joinWords, ¬ k <:+: toLower s) :
    mainRun rt sort (p ++ v1 ++ a ++ v2 ++ s) ref = .ok (foundLine ++ (DateTime.mk x.year x.month x.day h2 x.minute 0).format) := by
  have hT1 : toLower (p ++ v1 ++ a ++ v2 ++ s) = toLower p ++ toLower v1 ++ (toLower a ++ toLower v2 ++ toLower s) := by simp [toLower_append]
  generalize hX : p ++ v1 ++ a ++ v2 ++ s = X at *
  have hTl : toLower (toLower X) = toLower X := toLower_toLower X
  have hlen' : (toLower X).length < 4294967296 := by simpa [toLower] using hlen
  have hs2 := standsApart_lower has
  have hs1 : StandsApart (toLower p) (toLower a ++ toLower v2 ++ toLower s) := by
    have := standsApart_lower hps
    refine ⟨this.1, fun c hc => this.2 c ?_⟩
    cases hla : toLower a with
    | nil => rw [toLower, List.map_eq_nil_iff] at hla; exact absurd hla ha
    | cons z t => rw [hla] at hc; exact hc
  have hsc := execute_scan (rt := rt) hrt.stale casualTime_pattern casualTime_min integerWords X ref
  obtain ⟨r1, rs1, g1, g2, m1, ho, i1, st1, le1, d1, b1, sc2, -, p1, all1⟩ := parts_next hx hTl hlen' hn.thisPart hsc (begun_zero _) (Nat.zero_le _) hp1 (by rw [List.drop_zero]; exact hT1) hs1
    (fun w hw => (hno w hw).1)
  obtain ⟨r2, rs2, g3, g4, m2, ho2, i2, st2, le2, d2, -, -, t2, p2, all2⟩ := parts_next hx hTl hlen' hn.thisPart sc2 b1 le1 hp2 d1 hs2 (fun w hw => (hno w hw).2)
  simp only [Out.ok.injEq, Prod.mk.injEq] at ho2
  obtain ⟨rfl, rfl⟩ := ho2
  have hret : ParserReturns rt ref X casualTimeParser (r1 :: r2 :: rs2) := ⟨_, ho⟩
  obtain ⟨har, hmen⟩ := parts_mentions hn hret
  have hpart : ∀ y, Mention rt ref X y → IsPart x y := fun y hy => by
    rcases List.mem_cons.1 ((hmen y).1 hy) with rfl | hy
    exacts [p1, (all1 y hy).2]
  have hbef : Before r1 r2 := by unfold Before; rw [st1]; exact i2
  have hbefs : ∀ y ∈ rs2, Before r2 y := fun y hy => by unfold Before; rw [st2]; exact (all2 y hy).1
  have hh : h2 < 24 := by
    have key : ∀ z ∈ partHours, z.2 < 24 := by decide
    exact key _ hp2
  have hjoin : ∀ y, Before r2 y → ¬ Joined (toLower X) r2 y := by
    rintro y - ⟨k, hk, hi⟩
    refine hj k hk (hi.trans ?_)
    unfold slice
    rw [st2, d2]
    exact (List.take_prefix _ _).isInfix
  obtain ⟨l, hrun, hl, hpw, hok⟩ := date_time_refined hrt hs hlen har ((hmen r1).2 (by simp)) ((hmen r2).2 (by simp)) hbef (part_noZone p1) (part_noZone p2)
    (part_tag p1 (by decide)) (part_tag p2 (by decide)) p1.2.2.2.2.2.1 p2.2.2.2.2.2.1 (fun y hy => by
      have hy := (hmen y).1 hy
      simp only [List.mem_cons] at hy
      rcases hy with h | h | h
      · exact .inl h
      · exact .inr (.inl h)
      · exact .inr (.inr (.inr ⟨hbefs y h, .inl (hjoin y (hbefs y h))⟩))) (.inr (by rw [st2, d2]; exact hj))
    (d := r1) (t := r2) (.inl ⟨rfl, rfl⟩) p1.2.2.1 p2.2.2.2.1 (y := x.year) (mo := x.month) (da := x.day) p1.2.1 t2 ⟨hx.valid.1, hh, hx.valid.2.2.1, (by decide : (0 : Nat) < 60)⟩
  obtain ⟨out, hout⟩ := afterOverlaps_parts hx.valid (fun y hy => ⟨hpart y (hl y hy).1, (hl y hy).2⟩) hpw
  rw [hrun]
  rw [hout] at hok ⊢
  rcases hok with ⟨z, hz, hf⟩ | ⟨e, he, -⟩
  · simp only [Out.ok.injEq] at hz
    subst hz
    rw [Out.bind_ok, hf.prints]
  · cases he

/-! ## The conditions can be met, and are needed -/

/-- The conditions, checked. -/
def twoPartsChecks (p v1 a v2 s : Text) : Bool :=
  !p.getLast?.any isWordB && !a.head?.any isWordB && !a.getLast?.any isWordB && !s.head?.any isWordB && !a.isEmpty &&
    (dateWordChecks (p ++ v1 ++ a ++ v2 ++ s) partsOfDay).all id && partsOfDay.all fun w => !occursB true w true (toLower p) && !occursB true w true (toLower a)

theorem twoPartsChecks_sound {p v1 a v2 s : Text} (h : twoPartsChecks p v1 a v2 s = true) :
    StandsApart p a ∧ StandsApart a s ∧ a ≠ [] ∧ NoDateWordsBut partsOfDay (p ++ v1 ++ a ++ v2 ++ s) ∧
    ∀ w ∈ partsOfDay, ¬ WholeWord w (toLower p) ∧ ¬ WholeWord w (toLower a) := by
  unfold twoPartsChecks at h
  simp only [Bool.and_eq_true, Bool.not_eq_true'] at h
  obtain ⟨⟨⟨⟨⟨⟨h1, h2⟩, h3⟩, h4⟩, h5⟩, h6⟩, h7⟩ := h
  have edge : ∀ {o : Option Nat}, o.any isWordB = false → ∀ c, o = some c → ¬ WordChar c := by
    rintro o ho c rfl
    rw [wordChar_iff]; simpa using ho
  refine ⟨⟨edge h1, edge h2⟩, ⟨edge h3, edge h4⟩, (by rintro rfl; cases h5), dateWordChecks_sound h6, fun w hw => ?_⟩
  have := List.all_eq_true.1 h7 w hw
  simp only [Bool.and_eq_true, Bool.not_eq_true'] at this
  exact ⟨occursB_sound this.1, occursB_sound this.2⟩

/-- Samples: what stands before, the first word, what stands between, the second, what stands after; the two hours. -/
def twoPartsSamples : List ((Text × Text × Text × Text × Text) × Nat × Nat) :=
  [((txt!"", txt!"morning", txt!" or ", txt!"evening", txt!"?"), 6, 20),
   ((txt!"We are open from ", txt!"Morning", txt!" (early!) to ", txt!"AFTERNOON", txt!", please call"), 6, 15),
   ((txt!"", txt!"night", txt!" and ", txt!"Night", txt!""), 20, 20),
   ((txt!"in the ", txt!"evening", txt!", but not this ", txt!"afternoon", txt!" or the next morning, or this evening, or any night."), 20, 15)]

/-- **C102: the conditions are met** in ordinary texts, and the program prints the hour of the second word. -/
theorem c102_conditions_are_met : ∀ z ∈ twoPartsSamples, match z with
    | ((p, v1, a, v2, s), _, h2) => mainRun (Rt.usual 0) sortKeep (p ++ v1 ++ a ++ v2 ++ s) afternoonRef = .ok (foundLine ++ (DateTime.mk 2019 3 15 h2 0 0).format) := by
  have hck : ∀ z ∈ twoPartsSamples, match z with
    | ((p, v1, a, v2, s), h1, h2) => twoPartsChecks p v1 a v2 s = true ∧ (toLower v1, h1) ∈ partHours ∧ (toLower v2, h2) ∈ partHours ∧
        (∀ k ∈ joinWords, ¬ k <:+: toLower s) ∧ (p ++ v1 ++ a ++ v2 ++ s).length < 4294967296 := by decide +kernel
  rintro ⟨⟨p, v1, a, v2, s⟩, i, j⟩ hz
  obtain ⟨h1, h2, h3, h4, h5⟩ := hck _ hz
  obtain ⟨a1, a2, a3, a4, a5⟩ := twoPartsChecks_sound h1
  exact c102_second_part_of_day_is_printed _ usual_defined _ sortKeep_sorts _ _ afternoonRef_reads p v1 a v2 s i j h2 h3 a1 a2 a3 a4 a5 h5 h4

/-- **C102: the conditions are needed.** With `to` after the second word a range is printed; with a day in the text the day is another; the words joined to one are not read. -/
theorem c102_conditions_are_needed :
    mainRun (Rt.usual 0) sortKeep txt!"from morning to evening to work" afternoonRef ≠ .ok (foundLine ++ (DateTime.mk 2019 3 15 20 0 0).format) ∧
    mainRun (Rt.usual 0) sortKeep txt!"tomorrow, in the morning or evening" afternoonRef ≠ .ok (foundLine ++ (DateTime.mk 2019 3 15 20 0 0).format) ∧
    mainRun (Rt.usual 0) sortKeep txt!"morning_evening" afternoonRef = .ok invalidLine := by
  decide +kernel

end Chrono.Props
