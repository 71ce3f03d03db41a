import Verif.Lemmas.Extracts
import Verif.Lemmas.Patterns
import Verif.Spec.Program
/-!
# C14, C15, C16: `execute` of every parser
-/
namespace Chrono.Props
open Chrono Chrono.Spec Chrono.Boost

/-! ## A group at the very beginning -/

theorem head_group {a b : Re} {t : Text} {mt : Match} (h : (Re.seq (.cap 1 a) b).search t = some mt)
    (hb : b.bodies 1 = []) : ∃ e, mt.start ≤ e ∧ mt.str 1 = slice t mt.start e ∧ e + b.minLen ≤ mt.stop ∧
      e ≤ t.length := by
  obtain ⟨h1, h2, ⟨s', -, h4, h5, h6⟩, -⟩ := Re.search_some h
  obtain ⟨s1, h7, h8⟩ := rel_seq.1 h6
  obtain ⟨s2, h9, rfl⟩ := rel_cap.1 h7
  have on := startSt_on t mt.start h2
  obtain ⟨w, hw⟩ := h9.consumed
  obtain ⟨on2, -⟩ := on.of_consumed hw
  obtain ⟨-, new, hnew, c1, -⟩ := h8.caps (t := t) ⟨on2.le, on2.rest, on2.prev⟩
  obtain ⟨-, new', hnew', -⟩ := h9.caps on
  have hp := h9.pos_le
  have hml := h8.minLen
  have hcap : capSpan 1 mt.caps = some (mt.start, s2.pos) := by
    rw [← h5, hnew]
    have : ∀ l : List (Nat × Nat × Nat), (∀ n a b, (n, a, b) ∈ l → n ≠ 1) → ∀ r,
        capSpan 1 (l ++ (1, mt.start, s2.pos) :: r) = some (mt.start, s2.pos) := by
      intro l
      induction l with
      | nil => intro _ r; simp [capSpan]
      | cons x l ih =>
        obtain ⟨k, u, v⟩ := x
        intro hl r
        simp only [List.cons_append, capSpan]
        rw [if_neg (by simpa using hl k u v (by simp))]
        exact ih (fun n a b hm => hl n a b (by simp [hm])) r
    refine this new ?_ _
    rintro n x y hxy rfl
    obtain ⟨-, -, -, body, hbody, -⟩ := c1 1 x y hxy
    rw [hb] at hbody; simp at hbody
  refine ⟨s2.pos, hp, ?_, ?_, on2.le⟩
  · unfold Match.str; rw [if_neg (by decide), hcap, h1]
  · rw [← h4]; exact hml

theorem slice_length {t : Text} {a b : Nat} (h : b ≤ t.length) : (slice t a b).length = b - a := by
  unfold slice; rw [List.length_take, List.length_drop]; omega

/-- What the loop of `execute` needs to know about a parser. -/
def WellBehaved (P : Parser) : Prop :=
  ∀ r, P.pattern = some r → 1 ≤ r.minLen ∧
    ∀ (rt : Rt) (g : Globals) (tx : Text) (mt : Match) (ref : PTime) (idx : Nat), rt.Stops →
      r.search tx = some mt →
      Sat (fun x => x.1.index = PResult.toU32 idx ∧ 0 < x.1.text.length ∧ x.1.text <:+ mt.str 0) Fail.Stops
        (P.extract rt g tx mt ref idx)

theorem wb_whole {r : Re} {G : Tag} {p : Text} {f : Rt → Globals → Text → Match → PTime → Nat → Out PResult}
    (hc : compile true p = some r) (hmin : 1 ≤ r.minLen)
    (hk : ∀ rt g tx mt ref (idx : Nat), Keeps (PResult.toU32 idx) (mt.str 0) G (f rt g tx mt ref idx)) :
    WellBehaved ⟨compile true p, pureExtract f⟩ := by
  intro r' hr'
  simp only at hr'
  rw [hc] at hr'
  cases hr'
  refine ⟨hmin, fun rt g tx mt ref idx _ hs => ?_⟩
  unfold pureExtract
  refine Sat.bind (hk rt g tx mt ref idx) fun x hx => ?_
  have ok := Re.search_ok hs
  have := ok.lang.minLen
  obtain ⟨h1, h2, -⟩ := hx
  exact ⟨h1, by rw [h2]; omega, by rw [h2]; exact List.suffix_refl _⟩

theorem wb_tail {a b : Re} {G : Tag} {p : Text} {f : Rt → Globals → Text → Match → PTime → Nat → Out PResult}
    (hc : compile true p = some (Re.seq (.cap 1 a) b)) (hmin : 1 ≤ b.minLen) (hb : b.bodies 1 = [])
    (hk : ∀ rt g tx mt ref (idx : Nat), rt.Stops →
      Keeps (PResult.toU32 idx) ((mt.str 0).drop (mt.lengthOf 1)) G (f rt g tx mt ref idx)) :
    WellBehaved ⟨compile true p, pureExtract f⟩ := by
  intro r' hr'
  simp only at hr'
  rw [hc] at hr'
  cases hr'
  refine ⟨by simp only [Re.minLen]; omega, fun rt g tx mt ref idx hst hs => ?_⟩
  unfold pureExtract
  refine Sat.bind (hk rt g tx mt ref idx hst) fun x hx => ?_
  have ok := Re.search_ok hs
  obtain ⟨e, e1, e2, e3, e4⟩ := head_group hs hb
  have hl := ok.len
  unfold Match.length at hl
  obtain ⟨h1, h2, -⟩ := hx
  refine ⟨h1, ?_, by rw [h2]; exact List.drop_suffix _ _⟩
  rw [h2, List.length_drop]
  unfold Match.lengthOf
  rw [e2, slice_length e4]
  omega

theorem allParsers_wellBehaved : ∀ P ∈ allParsers, WellBehaved P := by
  intro P hP
  simp only [allParsers, mainParsers, List.cons_append, List.nil_append, List.mem_cons, List.not_mem_nil, or_false] at hP
  rcases hP with rfl | rfl | rfl | rfl | rfl | rfl | rfl | rfl | rfl | rfl | rfl | rfl | rfl
  · exact wb_whole (Ast.compile_casualTime) (by decide +kernel) fun _ _ _ _ _ _ => keeps_casualTime
  · exact wb_whole (Ast.compile_deadline) (by decide +kernel) fun _ _ _ _ _ _ => keeps_deadline
  · intro r hr
    rw [dayOfWeek_pattern] at hr
    cases hr
  · exact wb_whole (Ast.compile_casualDate) (by decide +kernel) fun _ _ _ _ _ _ => keeps_casualDate
  · exact wb_whole (Ast.compile_middleEndian) (by decide +kernel) fun _ _ _ _ _ _ => keeps_middleEndian
  · exact wb_tail (Ast.compile_timeLater) (by decide +kernel) (by decide +kernel) fun _ _ _ _ _ _ _ => keeps_timeLater
  · exact wb_tail (Ast.compile_monthName) (by decide +kernel) (by decide +kernel) fun _ _ _ _ _ _ _ => keeps_monthName
  · exact wb_whole (Ast.compile_timeAgo) (by decide +kernel) fun _ _ _ _ _ _ => keeps_timeAgo
  · exact wb_tail (Ast.compile_timeExpr) (by decide +kernel) (by decide +kernel) fun _ _ _ _ _ _ h => keeps_timeExpr h
  · exact wb_whole (Ast.compile_iso) (by decide +kernel) fun _ _ _ _ _ _ => keeps_iso
  · exact wb_whole (Ast.compile_holiday) (by decide +kernel) fun _ _ _ _ _ _ => keeps_holiday
  · intro r hr
    rw [week_pattern] at hr
    cases hr
    refine ⟨by decide +kernel, fun rt g tx mt ref idx _ hs => ?_⟩
    have ok := Re.search_ok hs
    have hl := ok.lang.minLen
    have hm : 1 ≤ Ast.week.minLen := by decide +kernel
    refine (keeps_week (G := .iso) (rt := rt) (g := g) (tx := tx) (mt := mt) (ref := ref) (idx := idx)).mono ?_ (fun _ h => h)
    rintro ⟨x, y⟩ ⟨⟨h1, h2, -⟩, -⟩
    have h3 : x.text = mt.str 0 := h2
    refine ⟨h1, ?_, ?_⟩
    · show 0 < x.text.length
      rw [h3]; omega
    · show x.text <:+ mt.str 0
      rw [h3]
      exact List.suffix_refl _
  · exact wb_whole (Ast.compile_relative) (by decide +kernel) fun _ _ _ _ _ _ => keeps_relative

/-! ## C14 -/

theorem scan_stops {rt : Rt} {P : Parser} {r : Re} {text : Text} {ref : PTime} {k : Nat} {g : Globals}
    {o : Out (List PResult × Globals)} (hst : rt.Stops) (hP : WellBehaved P) (hr : P.pattern = some r)
    (h : Scan rt P r text ref k g o) : o ≠ .diverge := by
  intro ho
  obtain ⟨k', g1, mt, h1, h2, h3⟩ := h.not_ok (by rw [ho]; simp)
  have := (hP r hr).2 rt g1 _ mt ref (k' + mt.start) hst h1
  rw [ho] at h3
  cases hx : P.extract rt g1 (text.drop k') mt ref (k' + mt.start) with
  | diverge => rw [hx] at this; exact this rfl
  | _ => rw [hx] at h3; simp at h3

/-- **C14.** For every parser of the library and every text, `execute` stops: the model's bound of one more
iteration than the text has characters is never reached (any larger bound gives the same outcome), because no
pattern matches the empty string. -/
theorem c14_every_parser_terminates (P : Parser) (hP : P ∈ allParsers) (rt : Rt) (hrt : rt.Benign) (hst : rt.Stops)
    (g : Globals) (text : Text) (ref : PTime) :
    execute rt P g text ref ≠ .diverge ∧
    ∀ r, P.pattern = some r →
      (∀ t mt, r.search t = some mt → 0 < mt.length) ∧
      (∀ n, text.length + 1 ≤ n →
        execLoop rt P r (toLower text) ref n g (toLower text) [] = execute rt P g text ref) := by
  have hw := allParsers_wellBehaved P hP
  constructor
  · cases hr : P.pattern with
    | none => unfold execute; rw [hr]; simp
    | some r => exact scan_stops hst hw hr (execute_scan hrt hr (hw r hr).1 g text ref)
  · intro r hr
    obtain ⟨hmin, -⟩ := hw r hr
    refine ⟨fun t mt h => ?_, fun n hn => ?_⟩
    · have := match_pos hmin h; unfold Match.length; omega
    · obtain ⟨out, h1, h2⟩ := execLoop_scan (rt := rt) (P := P) (text := toLower text) (ref := ref) hrt hmin
        n 0 g [] (by omega) (by simp [toLower]; omega)
      simp only [List.drop_zero, List.nil_append] at h2
      rw [h2, execute_of_scan hrt hr hmin h1]
      cases out <;> simp

example : ∃ rt : Rt, rt.Benign ∧ rt.Stops := ⟨Rt.usual 0, fun _ => rfl, by simp [Rt.usual], by simp [Rt.usual]⟩

/-! ## C15 -/

theorem scan_spans {rt : Rt} {P : Parser} {r : Re} {text : Text} {ref : PTime} {k : Nat} {g : Globals}
    {o : Out (List PResult × Globals)} (hst : rt.Stops) (hP : WellBehaved P) (hr : P.pattern = some r)
    (hlen : text.length < 4294967296)
    (h : Scan rt P r text ref k g o) : ∀ rs g', o = .ok (rs, g') →
      (∀ x ∈ rs, NonEmpty x ∧ k ≤ x.index ∧ stop x ≤ text.length) ∧
      rs.Pairwise (fun a b => a.index < b.index ∧ Before a b) := by
  induction h with
  | done hs => intro rs g' h; simp at h; simp [h.1]
  | @step k g mt res g1 out hs hx _ ih =>
    intro rs g' h
    obtain ⟨y, hy, h⟩ := Out.bind_eq_ok.1 h
    simp only [Out.ok.injEq, Prod.mk.injEq] at h
    obtain ⟨h1, h2⟩ := ih y.1 y.2 (by rw [hy])
    obtain ⟨hm, hw⟩ := hP r hr
    obtain ⟨p1, p2⟩ := match_pos hm hs
    rw [List.length_drop] at p2
    have ok := Re.search_ok hs
    have hl := ok.len
    unfold Match.length at hl
    obtain ⟨w1, w2, w3⟩ := (hw rt g _ mt ref (k + mt.start) hst hs).of_ok hx
    simp only at w1 w2 w3
    have w4 := w3.length_le
    have hidx : res.copy.index = k + mt.start := by
      show res.index = _
      rw [w1]; unfold PResult.toU32; omega
    have htx : res.copy.textLength = res.text.length := rfl
    split at h
    · rw [← h.1]
      refine ⟨?_, List.pairwise_cons.2 ⟨?_, h2⟩⟩
      · intro x hx'
        rcases List.mem_cons.1 hx' with rfl | hx'
        · refine ⟨by unfold NonEmpty; rw [htx]; exact w2, by omega, by unfold stop; rw [hidx, htx]; omega⟩
        · obtain ⟨a, b, c⟩ := h1 x hx'; exact ⟨a, by omega, c⟩
      · intro x hx'
        obtain ⟨a, b, c⟩ := h1 x hx'
        refine ⟨by omega, ?_⟩
        unfold Before stop; rw [hidx, htx]; omega
    · rw [← h.1]
      exact ⟨fun x hx' => by obtain ⟨a, b, c⟩ := h1 x hx'; exact ⟨a, by omega, c⟩, h2⟩
  | fail hs hx =>
    intro rs g' h
    obtain ⟨y, hy, -⟩ := Out.bind_eq_ok.1 h
    exact absurd hy (hx y)

/-- **C15.** Whatever `execute` returns: every mention is non-empty and lies inside the text; the mentions are in
strictly increasing order and do not overlap. -/
theorem c15_spans_inside_ordered_disjoint (P : Parser) (hP : P ∈ allParsers) (rt : Rt) (hrt : rt.Benign)
    (hst : rt.Stops) (g g' : Globals) (text : Text) (ref : PTime) (hlen : text.length < 4294967296)
    (rs : List PResult) (h : execute rt P g text ref = .ok (rs, g')) :
    (∀ x ∈ rs, 0 < x.textLength ∧ x.index + x.textLength ≤ text.length) ∧
    rs.Pairwise (fun a b => a.index < b.index ∧ a.index + a.textLength ≤ b.index) := by
  have hw := allParsers_wellBehaved P hP
  cases hr : P.pattern with
  | none =>
    unfold execute at h; rw [hr] at h
    simp at h; rw [h.1]; simp
  | some r =>
    have hl : (toLower text).length = text.length := by simp [toLower]
    obtain ⟨h1, h2⟩ := scan_spans hst hw hr (by rw [hl]; exact hlen)
      (execute_scan hrt hr (hw r hr).1 g text ref) rs g' h
    rw [hl] at h1
    exact ⟨fun x hx => ⟨(h1 x hx).1, (h1 x hx).2.2⟩, h2⟩

/-! ## C16 -/

theorem lowerB_same {c d : Nat} (h : SameLetter c d) : lowerB c = lowerB d := by
  unfold SameLetter at h
  unfold lowerB
  split <;> split <;> omega

theorem same_lowerB (c : Nat) : SameLetter c (lowerB c) := by
  unfold SameLetter lowerB
  split <;> omega

theorem toLower_same {t t' : Text} (h : SameUpToCase t t') : toLower t = toLower t' := by
  induction h with
  | nil => rfl
  | cons h _ ih => simp only [toLower, List.map_cons] at *; rw [lowerB_same h, ih]

theorem lowerB_lowerB (c : Nat) : lowerB (lowerB c) = lowerB c := by unfold lowerB; split <;> (try split) <;> omega

theorem toLower_toLower (t : Text) : toLower (toLower t) = toLower t := by
  simp [toLower, lowerB_lowerB]

/-- No ASCII capital is left. -/
def NoCapital (t : Text) : Prop := ∀ c ∈ t, ¬ (65 ≤ c ∧ c ≤ 90)

/-- **C16.** Two texts that differ only in letter case give the same results (and the same change of the global
table); the whole program prints the same. -/
theorem c16_case_insensitive (P : Parser) (rt : Rt) (g : Globals) (t t' : Text) (ref : PTime)
    (h : SameUpToCase t t') (sort : List PResult → List PResult) :
    execute rt P g t ref = execute rt P g t' ref ∧ mainRun rt sort t ref = mainRun rt sort t' ref := by
  have e := toLower_same h
  have he : ∀ P g, execute rt P g t ref = execute rt P g t' ref := by
    intro P g; unfold execute; rw [e]
  refine ⟨he P g, ?_⟩
  unfold mainRun mainParsers
  unfold runParsers
  rw [he, show textAfter t = textAfter t' from e]

/-- **C16 (caller's string).** After the call the caller's string differs from what it was only in letter case, has
no capitals, and a further call leaves it unchanged. -/
theorem c16_text_is_lowered (t : Text) :
    SameUpToCase t (textAfter t) ∧ NoCapital (textAfter t) ∧ textAfter (textAfter t) = textAfter t ∧
    (textAfter t).length = t.length := by
  refine ⟨?_, ?_, toLower_toLower t, by simp [textAfter, toLower]⟩
  · unfold SameUpToCase textAfter toLower
    induction t with
    | nil => exact .nil
    | cons c t ih => exact .cons (same_lowerB c) ih
  · intro c hc
    simp only [textAfter, toLower, List.mem_map] at hc
    obtain ⟨d, -, rfl⟩ := hc
    unfold lowerB; split <;> omega

example : SameUpToCase txt!"ToDay" txt!"tODaY" := by
  unfold SameUpToCase
  repeat' apply List.Forall₂.cons
  all_goals first
    | exact List.Forall₂.nil
    | (unfold SameLetter; omega)

end Chrono.Props
