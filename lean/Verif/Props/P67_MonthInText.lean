import Verif.Props.P66_NotATime
import Verif.Props.P64_HolidayInText
import Verif.Props.P30_MonthPhrases
/-!
# C87: a month named anywhere in a text
-/
namespace Chrono.Props
open Chrono Chrono.Spec Chrono.Boost

/-! ## The month-name pattern in a text without digits -/

/-- `\s` and `\s*`. -/
def sp1 : Re := .one (.set true false [.cls .space false])
def sps : Re := .star true sp1

/-- What the pattern wants before a month. -/
def monthLead : Re := .alt (.alt .bol (.seq (.one (.set true true [.cls .digit false])) (.seq sp1 sps))) (.one (.set true true [.cls .word false, .cls .space false]))

/-- What it wants after it. -/
def monthEnd : Re := .alt (.alt (.alt (.one (.set true true [.cls .space false, .cls .word false])) (.seq (.seq sp1 sps) (.one (.set true true [.range 48 57])))) (.seq (.seq sp1 sps) .eol)) .eol

/-- With a full stop, the month is the same - but for May. -/
def keepsDot (k : Text) : Bool := decide (k = txt!"may") || monthConstants.get (k ++ txt!".") == monthConstants.get k

/-- The spellings of months in the pattern. -/
def monthSpelled (w : Text) : Bool := monthForms.contains w || monthForms.any (fun k => decide (w = k ++ txt!".") && keepsDot k) || w.contains 92

theorem monthName_whole : ∃ m y ws, Ast.monthName = .seq (.cap 1 monthLead) (.seq (.cap 2 m) (.seq sps (.seq (.alt y .eps) (.look false monthEnd)))) ∧
    m.words = some ws ∧ ws.all monthSpelled = true ∧ (monthForms.all fun k => (m.fullMatch k).isSome) = true ∧ m.free = true ∧ m.groups = [] ∧
    ∃ p d r, y = .seq p (.seq sps (.seq (.cap 3 d) r)) ∧ d.allB isDigitB = true ∧ 4 ≤ d.minLen ∧ p.allB gapB = true ∧ p.groups = [] ∧ d.maxLen = some 4 ∧ d.groups = [] ∧
      ∃ be ad bc, r = .alt (.cap 4 (.alt (.alt (.seq sps be) ad) bc)) .eps ∧ be.words = some [txt!"be"] ∧ ad.words = some [txt!"ad"] ∧ bc.words = some [txt!"bc"] :=
  ⟨_, _, _, rfl, rfl, by decide +kernel, by decide +kernel, by decide +kernel, by decide +kernel, _, _, _, rfl, by decide +kernel, by decide +kernel, by decide +kernel, by decide +kernel, by decide +kernel, by decide +kernel, _, _, _, rfl, by decide +kernel, by decide +kernel, by decide +kernel⟩

/-- The last character consumed. -/
theorem rel_last {r : Re} {f : Nat → Bool} (hr : r.allB f = true) (hmin : 1 ≤ r.minLen) {s s1 : St} (h : Rel r s s1) {c : Nat} (hc : s1.prev = some c) : f c = true := by
  obtain ⟨w, hw⟩ := h.consumed
  have hl : Lang r w := ⟨_, _, h, hw⟩
  have h1 := hl.minLen
  have hne : w ≠ [] := by rintro rfl; simp at h1; omega
  rw [hw.prev, List.getLast?_eq_some_getLast hne] at hc
  simp only [Option.some_or, Option.some.injEq] at hc
  exact hl.allB _ hr c (by rw [← hc]; exact List.getLast_mem _)

/-- The first character consumed. -/
theorem rel_first {r : Re} {f : Nat → Bool} (hr : r.allB f = true) (hmin : 1 ≤ r.minLen) {s s1 : St} (h : Rel r s s1) {c : Nat} (hc : s.rest.head? = some c) : f c = true := by
  obtain ⟨w, hw⟩ := h.consumed
  have hl : Lang r w := ⟨_, _, h, hw⟩
  have h1 := hl.minLen
  rw [hw.rest] at hc
  cases w with
  | nil => simp at h1; omega
  | cons d w => cases hc; exact hl.allB _ hr c (by simp)

theorem lead_apart {s s1 : St} (h : Rel monthLead s s1) : ∀ c, s1.prev = some c → ¬ WordChar c := by
  intro c hc hw
  have hf : ∀ f : Nat → Bool, f c = true → (∀ x, f x = true → isWordB x = false) → False := by
    intro f h1 h2
    rw [wordChar_iff, h2 c h1] at hw
    cases hw
  rcases rel_alt.1 h with h | h
  · rcases rel_alt.1 h with h | h
    · cases h with
      | bol hp => rw [hp] at hc; cases hc
    · obtain ⟨s2, -, h⟩ := rel_seq.1 h
      refine hf isSpaceB (rel_last (by decide +kernel) (by decide) h hc) fun x hx => ?_
      have := isSpace_blank hx
      rw [← Bool.not_eq_true, ← wordChar_iff]
      exact blank_notWord this
  · exact hf (fun x => !isWordB x) (rel_last (f := fun x => !isWordB x) (by decide +kernel) (by decide) h hc) (by simp)

theorem end_apart {s s' : St} (h : Rel (.look false monthEnd) s s') : s' = s ∧ ∀ c, s.rest.head? = some c → ¬ WordChar c := by
  obtain ⟨h1, rfl⟩ := rel_look.1 h
  refine ⟨rfl, fun c hc => ?_⟩
  have h1 : (Re.m (α := Unit) monthEnd s' (fun _ => some ())).isSome = true := by simpa using h1
  obtain ⟨u, hu⟩ := Option.isSome_iff_exists.1 h1
  obtain ⟨s2, hr, -⟩ := Re.m_sound _ _ _ _ hu
  have blank : isSpaceB c = true → ¬ WordChar c := fun h => blank_notWord (isSpace_blank h)
  rcases rel_alt.1 hr with h | h
  · rcases rel_alt.1 h with h | h
    · rcases rel_alt.1 h with h | h
      · have := rel_first (f := fun x => !isWordB x) (by decide +kernel) (by decide) h hc
        rw [wordChar_iff]
        simpa using this
      · obtain ⟨s3, h, -⟩ := rel_seq.1 h
        exact blank (rel_first (f := isSpaceB) (by decide +kernel) (by decide) h hc)
    · obtain ⟨s3, h, -⟩ := rel_seq.1 h
      exact blank (rel_first (f := isSpaceB) (by decide +kernel) (by decide) h hc)
  · obtain ⟨h, -⟩ := rel_eol.1 h
    rw [h] at hc
    cases hc

theorem monthForms_checks : ∀ k ∈ monthForms, k ≠ [] ∧ (∀ c ∈ k, isWordB c = true) ∧ toLower k = k := by decide

/-- A match of the month-name pattern is a month that stands as a word, or a month with a year. -/
theorem month_cases {X : Text} (hX : toLower X = X) (h92 : 92 ∉ X) {q : Nat} (hq : q ≤ X.length) {s' : St} (h : Rel Ast.monthName (startSt X q) s') :
    (∃ A k x g B, X = A ++ k ++ (x ++ g ++ B) ∧ k ∈ monthForms ∧ (x = [] ∨ x = txt!"." ∧ keepsDot k = true) ∧ Blanks g ∧ (∀ c, A.getLast? = some c → ¬ WordChar c) ∧ (∀ c, B.head? = some c → ¬ WordChar c) ∧
      q ≤ A.length ∧ s'.caps = [(2, A.length, A.length + (k ++ x).length), (1, q, A.length)] ∧ s'.pos = A.length + (k ++ x ++ g).length ∧
      (∃ z, Rel monthLead (startSt X q) z ∧ z.pos = A.length) ∧ ∃ z, Rel (.look false monthEnd) z z ∧ z.rest = B) ∨
    ∃ A u g Y E B, X = A ++ u ++ g ++ (Y ++ (E ++ B)) ∧ monthSpelled u = true ∧ Gap g ∧ (∀ c ∈ Y, isDigitB c = true) ∧ Y.length = 4 ∧ (E = [] ∨ E = txt!"ad" ∨ E = txt!"bc" ∨ ∃ gg, Blanks gg ∧ E = gg ++ txt!"be") ∧
      (∀ c, B.head? = some c → ¬ WordChar c) ∧ s'.pos = (A ++ u ++ g ++ Y ++ E).length ∧
      (E = [] → s'.caps = [(3, A.length + u.length + g.length, A.length + u.length + g.length + Y.length), (2, A.length, A.length + u.length), (1, q, A.length)]) ∧
      ∃ z, Rel monthLead (startSt X q) z ∧ z.pos = A.length := by
  obtain ⟨m, y, ws, he, hmw, hws, -, -, hmg, p, d, r, rfl, hda, hdm, hpa, hpg, hdx, hdg, be, ad, bc, hr, hbe, had, hbc⟩ := monthName_whole
  rw [he] at h
  simp only [rel_seq] at h
  obtain ⟨s1, h1, s2, h2, s3, h3, s4, h4, h5⟩ := h
  obtain ⟨z1, h1', rfl⟩ := rel_cap.1 h1
  obtain ⟨z2, h2', rfl⟩ := rel_cap.1 h2
  have g1 : z1.caps = [] := h1'.caps_eq (by decide)
  have g2 := h2'.caps_eq hmg
  have g3 := h3.caps_eq (by decide)
  have o0 := startSt_on X q hq
  obtain ⟨u1, c1⟩ := h1.consumed
  obtain ⟨u2, c2⟩ := h2.consumed
  obtain ⟨u3, c3⟩ := h3.consumed
  have hap := lead_apart h1'
  have o1 := (o0.of_consumed c1).1
  have o2 := (o1.of_consumed c2).1
  have o3 := (o2.of_consumed c3).1
  have hpos1 := c1.pos
  have e := ((c1.trans c2).trans c3).rest
  have htext : X = (X.take q ++ u1) ++ u2 ++ (u3 ++ s3.rest) := by
    have e' : X.drop q = _ := e
    calc X = X.take q ++ X.drop q := (List.take_append_drop _ _).symm
      _ = _ := by rw [e']; simp only [List.append_assoc]
  have hpos2 := c2.pos
  have hpos3 := c3.pos
  simp only at hpos2 hpos3
  have hA : (X.take q ++ u1).length = z1.pos := by
    rw [List.length_append, List.length_take, Nat.min_eq_left hq]
    exact hpos1.symm
  have i2 : u2 <:+: X := ⟨_, _, htext.symm⟩
  have hmem := (lang_cap (show Lang (.cap 2 m) u2 from ⟨_, _, h2, c2⟩)).words _ hmw
  rw [lower_infix hX i2] at hmem
  rcases rel_alt.1 h4 with h4 | h4
  · right
    simp only [rel_seq] at h4
    obtain ⟨t1, k1, t2, k2, t3, k3, k4⟩ := h4
    obtain ⟨y3, k3', rfl⟩ := rel_cap.1 k3
    obtain ⟨v1, d1⟩ := k1.consumed
    obtain ⟨v2, d2⟩ := k2.consumed
    obtain ⟨v3, d3⟩ := k3'.consumed
    obtain ⟨v4, d4⟩ := k4.consumed
    have hl3 : Lang d v3 := ⟨_, _, k3', d3⟩
    obtain ⟨e5, hB⟩ := end_apart h5
    subst e5
    have r3 : s3.rest = v1 ++ (v2 ++ (v3 ++ (v4 ++ s'.rest))) := by
      have a1 : s3.rest = v1 ++ t1.rest := d1.rest
      have a2 : t1.rest = v2 ++ t2.rest := d2.rest
      have a3 : t2.rest = v3 ++ y3.rest := d3.rest
      have a4 : y3.rest = v4 ++ s'.rest := d4.rest
      rw [a1, a2, a3, a4]
    have b1 : t1.pos = s3.pos + v1.length := d1.pos
    have b2 : t2.pos = t1.pos + v2.length := d2.pos
    have b3 : y3.pos = t2.pos + v3.length := d3.pos
    have b4 : s'.pos = y3.pos + v4.length := d4.pos
    have l3 := hl3.minLen
    have l4 := hl3.maxLen 4 hdx
    have gy : y3.caps = s3.caps := (k3'.caps_eq hdg).trans ((k2.caps_eq (by decide)).trans (k1.caps_eq hpg))
    have hgap : Gap (u3 ++ (v1 ++ v2)) := by
      intro c hc
      simp only [List.mem_append] at hc
      rcases hc with hc | hc | hc
      · exact gap_of (show Lang sps u3 from ⟨_, _, h3, c3⟩) (by decide +kernel) c hc
      · exact gap_of (show Lang p v1 from ⟨_, _, k1, d1⟩) hpa c hc
      · exact gap_of (show Lang sps v2 from ⟨_, _, k2, d2⟩) (by decide +kernel) c hc
    have hE : (v4 = [] ∧ s'.caps = (3, t2.pos, y3.pos) :: y3.caps) ∨ v4 = txt!"ad" ∨ v4 = txt!"bc" ∨ ∃ gg, Blanks gg ∧ v4 = gg ++ txt!"be" := by
      rw [hr] at k4
      rcases rel_alt.1 k4 with k4 | k4
      · right
        obtain ⟨y4, k4', rfl⟩ := rel_cap.1 k4
        have d4' : Consumed { y3 with caps := (3, t2.pos, y3.pos) :: y3.caps } y4 v4 := ⟨d4.rest, d4.pos, d4.prev⟩
        have low : toLower v4 = v4 := by
          refine lower_infix hX ⟨X.take q ++ u1 ++ u2 ++ u3 ++ v1 ++ v2 ++ v3, y4.rest, ?_⟩
          refine Eq.trans ?_ htext.symm
          rw [r3]
          simp
        rcases rel_alt.1 k4' with k | k
        · rcases rel_alt.1 k with k | k
          · right; right
            obtain ⟨y5, m1, m2⟩ := rel_seq.1 k
            obtain ⟨x1, f1⟩ := m1.consumed
            obtain ⟨x2, f2⟩ := m2.consumed
            have e4 : v4 = x1 ++ x2 := d4'.word_eq (f1.trans f2)
            refine ⟨x1, fun c hc => isSpace_blank ((show Lang sps x1 from ⟨_, _, m1, f1⟩).allB isSpaceB (by decide +kernel) c hc), ?_⟩
            have := (show Lang be x2 from ⟨_, _, m2, f2⟩).words _ hbe
            rw [lower_infix low ⟨x1, [], by rw [e4]; simp⟩, List.mem_singleton] at this
            rw [e4, this]
          · left
            have := (show Lang ad v4 from ⟨_, _, k, d4'⟩).words _ had
            rwa [low, List.mem_singleton] at this
        · right; left
          have := (show Lang bc v4 from ⟨_, _, k, d4'⟩).words _ hbc
          rwa [low, List.mem_singleton] at this
      · left
        have := rel_eps.1 k4
        subst this
        refine ⟨List.length_eq_zero_iff.1 ?_, rfl⟩
        have : y3.pos = y3.pos + v4.length := b4
        omega
    refine ⟨X.take q ++ u1, u2, u3 ++ (v1 ++ v2), v3, v4, s'.rest, ?_, List.all_eq_true.1 hws _ hmem, hgap, hl3.allB _ hda, by omega, ?_, hB, ?_, ?_, z1, h1', hA.symm⟩
    · rw [r3] at htext
      refine htext.trans ?_
      simp
    · rcases hE with ⟨hE, -⟩ | hE
      exacts [.inl hE, .inr hE]
    · simp only [List.length_append] at hA ⊢
      omega
    · intro hv4
      have hc : s'.caps = (3, t2.pos, y3.pos) :: y3.caps := by
        rcases hE with ⟨-, h⟩ | h | h | ⟨gg, -, h⟩
        · exact h
        · rw [hv4] at h; cases h
        · rw [hv4] at h; cases h
        · rw [hv4] at h
          have := congrArg List.length h
          simp at this
      rw [hc, gy, g3, b3]
      simp only [g2, g1]
      rw [← hA, show t2.pos = (X.take q ++ u1).length + u2.length + (u3 ++ (v1 ++ v2)).length by
        simp only [List.length_append] at hA ⊢
        omega, show z2.pos = (X.take q ++ u1).length + u2.length by rw [hA]; exact hpos2]
      rfl
  left
  have hend : s4 = s3 := rel_eps.1 h4
  subst hend
  obtain ⟨e5, hB⟩ := end_apart h5
  subst e5
  have hlast : ∀ c, (X.take q ++ u1).getLast? = some c → ¬ WordChar c := by
    intro c hc
    refine hap c ?_
    have := o1.prev
    simp only at this
    rw [this]
    have e1 : X.take z1.pos = X.take q ++ u1 := by
      rw [← hA]
      have := congrArg (List.take (X.take q ++ u1).length) htext
      rwa [List.append_assoc _ u2, List.take_left] at this
    rw [e1]; exact hc
  have hg : Blanks u3 := by
    intro c hc
    exact isSpace_blank ((show Lang sps u3 from ⟨_, _, h3, c3⟩).allB isSpaceB (by decide +kernel) c hc)
  have hsp := List.all_eq_true.1 hws _ hmem
  unfold monthSpelled at hsp
  simp only [Bool.or_eq_true] at hsp
  rcases hsp with (hk | hk) | hk
  · refine ⟨X.take q ++ u1, u2, [], u3, s'.rest, by simpa using htext, by simpa using hk, .inl rfl, hg, hlast, hB, ?_, ?_, ?_⟩
    · rw [List.length_append, List.length_take, Nat.min_eq_left hq]; omega
    · rw [g3, hA]
      simp only [g2, g1, List.append_nil]
      rw [← hpos2]
      rfl
    · exact ⟨by rw [hA, hpos3, hpos2]; simp; omega, ⟨z1, h1', hA.symm⟩, s', h5, rfl⟩
  · obtain ⟨k, hk, hu⟩ := List.any_eq_true.1 hk
    rw [Bool.and_eq_true] at hu
    have hkd := hu.2
    have hu : u2 = k ++ txt!"." := by simpa using hu.1
    refine ⟨X.take q ++ u1, k, txt!".", u3, s'.rest, ?_, hk, .inr ⟨rfl, hkd⟩, hg, hlast, hB, ?_, ?_, ?_⟩
    · have := htext
      rw [hu] at this
      simpa using this
    · rw [List.length_append, List.length_take, Nat.min_eq_left hq]; omega
    · rw [g3, hA, ← hu]
      simp only [g2, g1]
      rw [← hpos2]
      rfl
    · exact ⟨by rw [hA, hpos3, hpos2, ← hu]; simp; omega, ⟨z1, h1', hA.symm⟩, s', h5, rfl⟩
  · exact absurd (i2.subset (by simpa using hk)) h92

/-- A match of the month-name pattern, in a text without numbers of four digits, is a month that stands as a word. -/
theorem month_match {X : Text} (hX : toLower X = X) (h92 : 92 ∉ X) (hd : ∀ v, v <:+: X → (∀ c ∈ v, isDigitB c = true) → v.length < 4) {q : Nat} (hq : q ≤ X.length) {s' : St} (h : Rel Ast.monthName (startSt X q) s') :
    ∃ A k x g B, X = A ++ k ++ (x ++ g ++ B) ∧ k ∈ monthForms ∧ (x = [] ∨ x = txt!"." ∧ keepsDot k = true) ∧ Blanks g ∧ (∀ c, A.getLast? = some c → ¬ WordChar c) ∧ (∀ c, B.head? = some c → ¬ WordChar c) ∧
      q ≤ A.length ∧ s'.caps = [(2, A.length, A.length + (k ++ x).length), (1, q, A.length)] ∧ s'.pos = A.length + (k ++ x ++ g).length ∧
      (∃ z, Rel monthLead (startSt X q) z ∧ z.pos = A.length) ∧ ∃ z, Rel (.look false monthEnd) z z ∧ z.rest = B := by
  rcases month_cases hX h92 hq h with h | ⟨A, u, g, Y, E, B, e, -, -, hY, hl, -⟩
  · exact h
  · exfalso
    have := hd Y ⟨A ++ u ++ g, E ++ B, by rw [List.append_assoc _ Y]; exact e.symm⟩ hY
    omega

/-! ## A month in a text -/

theorem lower_no92 {text : Text} (h : 92 ∉ text) : 92 ∉ toLower text := by
  intro hc
  obtain ⟨c, hc, hl⟩ := List.mem_map.1 (show 92 ∈ text.map lowerB from hc)
  unfold lowerB at hl
  split at hl
  · omega
  · subst hl; exact h hc

theorem no_long_number {X : Text} (h : ∀ c ∈ X, isDigitB c = false) : ∀ v, v <:+: X → (∀ c ∈ v, isDigitB c = true) → v.length < 4 := by
  intro v hv hd
  cases v with
  | nil => simp
  | cons c v =>
    have := h c (hv.subset (by simp))
    rw [hd c (by simp)] at this
    cases this

/-- No month but the one. -/
theorem other_month {text P S w : Text} (hT : toLower text = P ++ w ++ S) (hps : StandsApart P S) (h : FewDateWords [w] text) (hP : ¬ WholeWord w P)
    (hS : ¬ WholeWord w S) : ∀ v ∈ monthForms, WholeWord v P ∨ WholeWord v S → False := by
  intro v hv ho
  by_cases hvw : v = w
  · subst hvw; rcases ho with h | h; exacts [hP h, hS h]
  · refine absurd ?_ (h.months v hv (by simpa using hvw))
    rw [hT]
    have hne : v.head?.any isWordB = true := by
      obtain ⟨v1, v2, -⟩ := monthForms_checks v hv
      cases v with
      | nil => exact absurd rfl v1
      | cons c v => exact v2 c (by simp)
    have hne' : v.getLast?.any isWordB = true := by
      obtain ⟨v1, v2, -⟩ := monthForms_checks v hv
      rw [List.getLast?_eq_some_getLast v1]
      exact v2 _ (List.getLast_mem _)
    rcases ho with ho | ho
    · obtain ⟨a, b, rfl, h1, h2⟩ := ho
      refine ⟨a, b ++ w ++ S, by simp, h1, fun he c hc => ?_⟩
      cases b with
      | cons d b => cases hc; exact h2 he _ rfl
      | nil =>
        exfalso
        rw [List.append_nil] at hps
        have h3 := hps.1 (v.getLast (by rintro rfl; cases hne)) (by rw [List.getLast?_append, List.getLast?_eq_some_getLast (by rintro rfl; cases hne)]; rfl)
        rw [List.getLast?_eq_some_getLast (by rintro rfl; cases hne)] at hne'
        exact h3 (wordChar_iff.2 (by simpa using hne'))
    · rw [show P ++ w ++ S = (P ++ w) ++ S from rfl]
      exact occurs_right (P ++ w) hne hps.2 ho

theorem month_place {text P S w : Text} (hw : w ∈ monthForms) (hT : toLower text = P ++ w ++ S) (hps : StandsApart P S) (h : NoDateWordsBut [w] text) (hP : ¬ WholeWord w P)
    (hS : ¬ WholeWord w S) {q : Nat} (hq : q ≤ (toLower text).length) {s' : St} (hrel : Rel Ast.monthName (startSt (toLower text) q) s') :
    ∃ x g B, S = x ++ g ++ B ∧ (x = [] ∨ x = txt!"." ∧ keepsDot w = true) ∧ Blanks g ∧ (∀ c, B.head? = some c → ¬ WordChar c) ∧ q ≤ P.length ∧
      s'.caps = [(2, P.length, P.length + (w ++ x).length), (1, q, P.length)] ∧ s'.pos = P.length + (w ++ x ++ g).length ∧
      ∃ z, Rel monthLead (startSt (toLower text) q) z ∧ z.pos = P.length := by
  obtain ⟨A, k, x, g, B, e, hk, hx, hg, hA, hB, hqA, hcs, hps', hz, -⟩ := month_match (toLower_toLower text) (lower_no92 h.backslash) (no_long_number (lower_noDigits h.digits)) hq hrel
  obtain ⟨w1, w2, w3⟩ := monthForms_checks w hw
  obtain ⟨k1, k2, k3⟩ := monthForms_checks k hk
  have hbnd : ∀ c, (x ++ g ++ B).head? = some c → ¬ WordChar c := by
    intro c hc
    rcases hx with rfl | ⟨rfl, -⟩
    · cases g with
      | nil => exact hB c hc
      | cons z g => cases hc; exact blank_notWord (hg _ (by simp))
    · cases hc; unfold WordChar; omega
  have hall := other_month hT hps h.toFewDateWords hP hS
  rcases word_elsewhere w1 w2 k1 k2 hps hA hbnd (hT.symm.trans e) with hh | ⟨rfl, rfl, rfl⟩ | hh
  · exact (hall k hk (.inl hh)).elim
  swap
  · exact (hall k hk (.inr hh)).elim
  exact ⟨x, g, B, rfl, hx, hg, hB, hqA, hcs, hps', hz⟩

theorem month_only {text P S w : Text} (hw : w ∈ monthForms) (hT : toLower text = P ++ w ++ S) (hps : StandsApart P S) (h : NoDateWordsBut [w] text) (hP : ¬ WholeWord w P)
    (hS : ¬ WholeWord w S) {mt : Match} (hm : Ast.monthName.search (toLower text) = some mt) :
    ∃ x, (x = [] ∨ x = txt!"." ∧ S.head? = some 46 ∧ keepsDot w = true) ∧ mt.str 2 = w ++ x ∧ mt.str 3 = [] ∧ mt.lengthOf 1 ≤ (mt.str 0).length ∧ Ast.monthName.search ((toLower text).drop mt.stop) = none := by
  obtain ⟨hsub, hle, ⟨s', -, hpos, hcaps, hrel⟩, -⟩ := Re.search_some hm
  obtain ⟨x, g, B, rfl, hx, hg, hB, hqA, hcs, hps', -⟩ := month_place hw hT hps h hP hS hle hrel
  have e := hT
  have h92 := lower_no92 h.backslash
  have low : ∀ {Y : Text}, Y <:+: toLower text → toLower Y = Y := fun hY => lower_infix (toLower_toLower text) hY
  have hall := other_month hT hps h.toFewDateWords hP hS
  have hcap : mt.caps = _ := hcaps.symm.trans hcs
  have s2 : mt.str 2 = w ++ x := by
    unfold Match.str
    rw [if_neg (by decide), hsub, hcap]
    show slice _ _ _ = _
    unfold slice
    rw [e, List.append_assoc, List.drop_left, Nat.add_sub_cancel_left, show w ++ (x ++ g ++ B) = (w ++ x) ++ (g ++ B) by simp, List.take_left]
  have s3 : mt.str 3 = [] := by
    unfold Match.str
    rw [if_neg (by decide), hcap]
    rfl
  have hok := Re.search_ok hm
  have h1 : mt.lengthOf 1 ≤ (mt.str 0).length := by
    rw [← hok.len]
    unfold Match.lengthOf Match.length
    rcases hok.group 1 (by decide) with ⟨-, h⟩ | ⟨a, b, -, h1, h2, h3, h4, -⟩
    · rw [h]; simp
    · rw [h4]; unfold slice; simp; omega
  refine ⟨x, ?_, s2, s3, h1, ?_⟩
  · rcases hx with rfl | ⟨rfl, hkd⟩
    · exact .inl rfl
    · exact .inr ⟨rfl, rfl, hkd⟩
  · have hdrop : (toLower text).drop mt.stop = B := by
      rw [← hpos, hps', e, show P ++ w ++ (x ++ g ++ B) = (P ++ (w ++ x ++ g)) ++ B by simp, ← List.length_append, List.drop_left]
    rw [hdrop, ← low (Y := B) ⟨P ++ w ++ x ++ g, [], by rw [e]; simp⟩]
    have hBl : toLower B = B := low (Y := B) ⟨P ++ w ++ x ++ g, [], by rw [e]; simp⟩
    refine Re.search_needs monthName_needs (by decide +kernel) (text := B) ?_ (fun _ c hc => ?_)
    · intro key hkey
      rcases List.mem_append.1 hkey with hkey | hkey
      · refine not_whole (l := monthForms) (fun v hv ho => hall v hv (.inr ?_)) key hkey
        rw [hBl] at ho
        have hne : v.head?.any isWordB = true := by
          obtain ⟨v1, v2, -⟩ := monthForms_checks v hv
          cases v with
          | nil => exact absurd rfl v1
          | cons c v => exact v2 c (by simp)
        exact occurs_right (x ++ g) hne hB ho
      · rw [List.mem_singleton] at hkey
        subst hkey
        refine no_backslash fun hb => h92 ?_
        rw [e]; simp [hb]
    · have := lower_noDigits h.digits c (by rw [e]; simp [hc])
      exact not_digit_iff.2 this

/-- A character that one of the classes of the pattern accepts. -/
theorem class_space {c : Nat} (h : Blank c) : (Single.set true false [.cls .space false]).test c = true := by
  have : c < 256 := by unfold Blank at h; omega
  have key : ∀ c < 256, isSpaceB c = true → (Single.set true false [.cls .space false]).test c = true := by decide +kernel
  exact key c this (blank_isSpace h)

theorem class_other {c : Nat} (hc : c < 256) (h : ¬ WordChar c) (hb : ¬ Blank c) : (Single.set true true [.cls .word false, .cls .space false]).test c = true ∧
    (Single.set true true [.cls .space false, .cls .word false]).test c = true := by
  have key : ∀ c < 256, isWordB c = false → isSpaceB c = false → (Single.set true true [.cls .word false, .cls .space false]).test c = true ∧
    (Single.set true true [.cls .space false, .cls .word false]).test c = true := by decide +kernel
  refine key c hc ?_ ?_
  · rw [← Bool.not_eq_true, ← wordChar_iff]; exact h
  · rw [← Bool.not_eq_true]; exact fun h => hb (isSpace_blank h)

theorem class_noDigit {c : Nat} (hc : c < 256) (h : ¬ (48 ≤ c ∧ c ≤ 57)) : (Single.set true true [.cls .digit false]).test c = true ∧ (Single.set true true [.range 48 57]).test c = true := by
  have key : ∀ c < 256, ¬ (48 ≤ c ∧ c ≤ 57) → (Single.set true true [.cls .digit false]).test c = true ∧ (Single.set true true [.range 48 57]).test c = true := by decide +kernel
  exact key c hc h

/-- What must stand before a month: nothing, a character that is not a letter, digit or underscore, but not just one blank. -/
theorem monthLead_found {T P R : Text} (e : T = P ++ R) (hd : NoDigits P) (hb : ∀ c ∈ P, c < 256) (ha : ∀ c, P.getLast? = some c → ¬ WordChar c) (h1 : ¬ ∃ c, Blank c ∧ P = [c]) :
    ∃ q ≤ P.length, ∃ s, Rel monthLead (startSt T q) s ∧ s.pos = P.length ∧ s.rest = R := by
  rcases List.eq_nil_or_concat P with rfl | ⟨P', c, rfl⟩
  · refine ⟨0, Nat.le_refl _, _, .altL (.altL (.bol rfl)), rfl, ?_⟩
    rw [e]; rfl
  rw [List.concat_eq_append] at *
  have hc := ha c (by simp)
  by_cases hbl : Blank c
  · rcases List.eq_nil_or_concat P' with rfl | ⟨P'', d, rfl⟩
    · exact absurd ⟨c, hbl, rfl⟩ h1
    rw [List.concat_eq_append] at *
    refine ⟨P''.length, by simp, _, .altL (.altR (.seq (.one (c := d) (t := c :: R) ?_ (class_noDigit (hb d (by simp)) (hd d (by simp))).1) (.seq (.one (c := c) (t := R) rfl (class_space hbl)) .star0))), ?_, rfl⟩
    · rw [e]
      simp [startSt]
    · simp [St.adv, startSt]
  · refine ⟨P'.length, by simp, _, .altR (.one (c := c) (t := R) ?_ (class_other (hb c (by simp)) hc hbl).1), ?_, rfl⟩
    · rw [e]; simp [startSt]
    · simp [St.adv, startSt]

theorem monthEnd_found {s : St} (hd : NoDigits s.rest) (hb : ∀ c ∈ s.rest, c < 256) (ha : ∀ c, s.rest.head? = some c → ¬ WordChar c) : Rel (.look false monthEnd) s s := by
  have : ∃ s', Rel monthEnd s s' := by
    cases hr : s.rest with
    | nil => exact ⟨_, .altR (.eol hr)⟩
    | cons c R =>
      rw [hr] at hd hb ha
      have hc := ha c rfl
      by_cases hbl : Blank c
      · cases R with
        | nil => exact ⟨_, .altL (.altR (.seq (.seq (.one hr (class_space hbl)) .star0) (.eol rfl)))⟩
        | cons d R => exact ⟨_, .altL (.altL (.altR (.seq (.seq (.one hr (class_space hbl)) .star0) (.one rfl (class_noDigit (hb d (by simp)) (hd d (by simp))).2))))⟩
      · exact ⟨_, .altL (.altL (.altL (.one hr (class_other (hb c (by simp)) hc hbl).2)))⟩
  obtain ⟨s', hs⟩ := this
  refine .look ?_
  rw [Re.m_complete _ _ _ (fun _ => some ()) hs rfl]
  rfl

theorem month_found {text P S w : Text} (hw : w ∈ monthForms) (hT : toLower text = P ++ w ++ S) (hps : StandsApart P S) (hd : NoDigits text) (hb : ∀ c ∈ text, c < 256)
    (h1 : ¬ ∃ c, Blank c ∧ P = [c]) : ∃ mt, Ast.monthName.search (toLower text) = some mt := by
  cases hs : Ast.monthName.search (toLower text) with
  | some mt => exact ⟨mt, rfl⟩
  | none =>
    exfalso
    obtain ⟨m, y, ws, he, -, -, hfm, hfree, -⟩ := monthName_whole
    have hdl : NoDigits (toLower text) := fun c hc => not_digit_iff.2 (lower_noDigits hd c hc)
    have hbl : ∀ c ∈ toLower text, c < 256 := by
      intro c hc
      obtain ⟨z, hz, rfl⟩ := List.mem_map.1 (show c ∈ text.map lowerB from hc)
      have := hb z hz
      unfold lowerB
      split <;> omega
    rw [hT] at hdl hbl
    obtain ⟨q, hq, s1, r1, p1, e1⟩ := monthLead_found (T := toLower text) (P := P) (R := w ++ S) (by rw [hT]; simp) (fun c hc => hdl c (by simp [hc])) (fun c hc => hbl c (by simp [hc])) hps.1 h1
    have hlang := lang_of_fullMatch (List.all_eq_true.1 hfm w hw)
    obtain ⟨s2, r2, c2, e2⟩ := hlang.rel hfree (z := { s1 with caps := (1, q, s1.pos) :: s1.caps }) (v := S) e1
    have hq' : q ≤ (toLower text).length := by rw [hT]; simp; omega
    refine Re.search_none hs q hq' { s2 with caps := (2, s1.pos, s2.pos) :: s2.caps } ?_
    · rw [he]
      refine .seq (.cap r1) (.seq (.cap r2) (.seq .star0 (.seq (.altR (.eps _)) (monthEnd_found ?_ ?_ ?_))))
      · show NoDigits s2.rest
        rw [e2]; exact fun c hc => hdl c (by simp [hc])
      · show ∀ c ∈ s2.rest, _
        rw [e2]; exact fun c hc => hbl c (by simp [hc])
      · show ∀ c, s2.rest.head? = some c → _
        rw [e2]; exact hps.2

/-- What is read from a month without a year. -/
def monthRead (ref : PTime) (m : Int) : Out PResult := do
  let y ← nearestYear ref m 1
  return ((PResult.mk' ref 0 []).onStart (fun c => ((c.imply .mday 1).set .month m).imply .year y)).setTag .monthName

theorem monthName_extract {rt : Rt} {g : Globals} {tx : Text} {mt : Match} {ref : PTime} {idx : Nat} (h1 : mt.lengthOf 1 ≤ (mt.str 0).length) (h3 : mt.str 3 = []) :
    monthNameExtract rt g tx mt ref idx = (monthRead ref (monthConstants.get (mt.str 2)) >>= fun r => .ok (placed (PResult.toU32 idx) ((mt.str 0).drop (mt.lengthOf 1)) r)) := by
  unfold monthNameExtract monthRead
  have : substr (mt.str 0) (mt.lengthOf 1) = .ok ((mt.str 0).drop (mt.lengthOf 1)) := by unfold substr; rw [if_pos h1]
  rw [this, h3]
  simp only [Out.bind_ok, List.isEmpty_nil, if_true, Out.pure_eq, ne_eq, not_true_eq_false, if_false]
  cases nearestYear ref (monthConstants.get (mt.str 2)) 1 <;> rfl

theorem month_others : ∀ w ∈ monthForms, (∀ x ∈ partsOfDay, x ∉ [w]) ∧ (∀ x ∈ nearDays, x ∉ [w]) ∧ (∀ x ∈ holidayWords, x ∉ [w]) ∧ txt!"in" ∉ [w] ∧ txt!"week" ∉ [w] := by decide

theorem month_run {rt : Rt} (hrt : rt.Benign) {sort : List PResult → List PResult} (hs : Sorts sort) {text P S w : Text} (hw : w ∈ monthForms) (hT : toLower text = P ++ w ++ S)
    (hps : StandsApart P S) (h : NoDateWordsBut [w] text) (hP : ¬ WholeWord w P) (hS : ¬ WholeWord w S) (hb : ∀ c ∈ text, c < 256) (h1 : ¬ ∃ c, Blank c ∧ P = [c]) (ref : PTime) :
    ∃ x mt, (x = [] ∨ x = txt!"." ∧ S.head? = some 46 ∧ keepsDot w = true) ∧ Ast.monthName.search (toLower text) = some mt ∧ mt.str 2 = w ++ x ∧
      mainRun rt sort text ref = (monthRead ref (monthConstants.get (w ++ x)) >>= answer) := by
  obtain ⟨mt, hm⟩ := month_found hw hT hps h.digits hb h1
  obtain ⟨x, hx, s2, s3, hl, hno⟩ := month_only hw hT hps h hP hS hm
  refine ⟨x, mt, hx, hm, s2, ?_⟩
  have hf := h.toFewDateWords
  obtain ⟨i1, i2, i3, i4, i5⟩ := month_others w hw
  have ho : othersSilent 6 (toLower text) = true := by
    have a := no_numbers h
    have b := no_slashes hf
    unfold othersSilent
    simp [List.range_succ, mainPatterns, no_casualTime hf i1, no_casualDate hf i2, no_deadline_search (hf.deadlines i4), no_week_search (hf.weeks i5), no_holiday hf i3,
      a Ast.middleEndian (by simp), a Ast.timeExpr (by simp), a Ast.iso (by simp), b Ast.timeLater (by simp), b Ast.timeAgo (by simp)]
  rw [only_run hrt hs 6 rfl monthName_pattern monthName_min rfl ho hm hno, monthName_extract hl s3, s2]
  · cases monthRead ref (monthConstants.get (w ++ x)) with
    | ok r => exact answer_placed _ _ _
    | _ => rfl
  · intro res hr
    rw [monthName_extract hl s3] at hr
    obtain ⟨c, hc, hr⟩ := Out.bind_eq_ok.1 hr
    cases hr
    unfold monthRead at hc
    obtain ⟨y, -, hc⟩ := Out.bind_eq_ok.1 hc
    cases hc
    have hp := plain_setTag (T := .monthName) (by decide) (plain_mk ref 0 [])
    exact hp

theorem monthForms_get : ∀ k ∈ monthForms, ∀ m < 13, monthWord k m = true → monthConstants.get k = m ∧ 1 ≤ m := by decide +kernel

theorem monthRead_prints {ref : PTime} {x : DateTime} (hx : RefReads ref x) (h1 : 1401 ≤ x.year) (h2 : x.year ≤ 9998) {m : Nat} (m1 : 1 ≤ m) (m2 : m ≤ 12) :
    ∃ y, NearestYear x.date m 1 y ∧ (monthRead ref m >>= answer) = .ok (foundLine ++ (DateTime.mk y m 1 0 0 0).format) := by
  have hb := monthLength_bounds x.year m m1 m2
  obtain ⟨y, hy⟩ := nearestYear_ok hx (m := m) (d := 1) ⟨m1, m2, by omega, by omega⟩ h1 h2
  obtain ⟨-, -, -, y', rfl, hyy, hn⟩ := nearestYear_sound hx hy
  refine ⟨y', hn (fun _ => by decide) (by omega), ?_⟩
  unfold monthRead
  have hy' : nearestYear ref (m : Int) 1 = .ok (y' : Int) := hy
  rw [hy']
  simp only [Out.bind_ok, Out.pure_eq]
  have hb' := monthLength_bounds y' m m1 m2
  have hc : CivilInRange y' m 1 := ⟨by omega, by omega, m1, m2, by omega, by omega⟩
  have hp := c08_toDate_prints_start (((PResult.mk' ref 0 []).onStart (fun c => ((c.imply .mday 1).set .month m).imply .year (y' : Int))).setTag .monthName) ⟨y', m, 1, 0, 0, 0⟩
    ⟨hc, by simp, by simp, by simp⟩ ⟨rfl, rfl, rfl, rfl, rfl, rfl⟩ rfl rfl
  unfold answer
  rw [if_pos, hp]
  · rfl
  · refine hasPossibleDates_of_year ?_
    show (y' : Int) ≠ 0
    omega

theorem one_blank_lower {p : Text} (hone : ¬ ∃ c, Blank c ∧ p = [c]) : ¬ ∃ c, Blank c ∧ toLower p = [c] := by
  rintro ⟨c, hc, e⟩
  unfold toLower at e
  obtain ⟨d, t, rfl, hd, ht⟩ := List.map_eq_cons_iff.1 e
  rw [List.map_eq_nil_iff] at ht
  subst ht
  refine hone ⟨d, ?_, rfl⟩
  unfold lowerB at hd
  split at hd
  · subst hd; unfold Blank at hc; omega
  · subst hd; exact hc

/-- **C87.** If the only word for a date in a text is a month, then the program prints the first day of that month, at midnight, in the year that puts it nearest to the reference date,
whatever the other words are, and in upper or lower case. -/
theorem c87_month_in_any_text (rt : Rt) (hrt : rt.Benign) (sort : List PResult → List PResult) (hs : Sorts sort) (ref : PTime) (x : DateTime) (hx : RefReads ref x)
    (h1401 : 1401 ≤ x.year) (h9998 : x.year ≤ 9998) (p v s : Text) (m : Nat) (hw : toLower v ∈ monthForms) (hm : monthWord (toLower v) m = true) (hps : StandsApart p s)
    (h : NoDateWordsBut [toLower v] (p ++ v ++ s)) (hp : ¬ WholeWord (toLower v) (toLower p)) (hns : ¬ WholeWord (toLower v) (toLower s)) (hb : ∀ c ∈ p ++ v ++ s, c < 256)
    (hone : ¬ ∃ c, Blank c ∧ p = [c]) (hmay : toLower v = txt!"may" → s.head? ≠ some 46) :
    ∃ y, NearestYear x.date m 1 y ∧ mainRun rt sort (p ++ v ++ s) ref = .ok (foundLine ++ (DateTime.mk y m 1 0 0 0).format) := by
  have hT : toLower (p ++ v ++ s) = toLower p ++ toLower v ++ toLower s := by simp [toLower]
  have hm12 : 1 ≤ m ∧ m ≤ 12 := by
    unfold monthWord at hm
    simp only [Bool.and_eq_true, decide_eq_true_eq] at hm
    exact hm.1
  have hone' := one_blank_lower hone
  obtain ⟨z, -, hz, -, -, hr⟩ := month_run hrt hs hw hT (standsApart_lower hps) h hp hns hb hone' ref
  obtain ⟨g1, g2⟩ := monthForms_get _ hw m (by omega) hm
  have hg : (monthConstants.get (toLower v ++ z) : Int) = m := by
    rcases hz with rfl | ⟨rfl, hh, hk⟩
    · rw [List.append_nil, g1]
    · unfold keepsDot at hk
      simp only [Bool.or_eq_true, decide_eq_true_eq, beq_iff_eq] at hk
      rcases hk with hk | hk
      · exfalso
        refine hmay hk ?_
        cases s with
        | nil => cases hh
        | cons c s =>
          have hh : lowerB c = 46 := by simpa [toLower] using hh
          unfold lowerB at hh
          split at hh
          · omega
          · rw [hh]; rfl
      · rw [hk, g1]
  rw [hr, hg]
  exact monthRead_prints hx h1401 h9998 hm12.1 hm12.2

/-! ## Where the conditions fail -/

/-- The months of the pattern. -/
def monthAlt : Re := match Ast.monthName with | .seq _ (.seq (.cap 2 m) _) => m | _ => .eps

/-- `May.` is read with its full stop. -/
theorem may_first {s : St} {R : Text} (hr : s.rest = txt!"may." ++ R) : First monthAlt s (s.advs txt!"may." R) := by
  have key : ∃ l r1 r2 r3 r4 r5 r6 r7 r8 r9 r10 r11 r12 r13 r14 r15 ws, monthAlt = .alt (.alt (.alt (.alt (.alt (.alt (.alt (.alt (.alt (.alt (.alt (.alt (.alt (.alt (.alt (.alt l
      (.seq (.one (.ch true 77)) (.seq (.one (.ch true 97)) (.seq (.one (.ch true 121)) (.alt (.one (.ch true 46)) .eps))))) r1) r2) r3) r4) r5) r6) r7) r8) r9) r10) r11) r12) r13) r14) r15 ∧
      l.words = some ws ∧ (ws.all fun w => !(w.take 3).isPrefixOf txt!"may" && !w.isEmpty) = true :=
    ⟨_, _, _, _, _, _, _, _, _, _, _, _, _, _, _, _, _, rfl, rfl, by decide +kernel⟩
  obtain ⟨l, r1, r2, r3, r4, r5, r6, r7, r8, r9, r10, r11, r12, r13, r14, r15, ws, e, hl, hws⟩ := key
  rw [e]
  refine .altL (.altL (.altL (.altL (.altL (.altL (.altL (.altL (.altL (.altL (.altL (.altL (.altL (.altL (.altL (.altR ?_ ?_)))))))))))))))
  · intro s' h
    obtain ⟨w, hw⟩ := h.consumed
    have hm := (show Lang l w from ⟨_, _, h, hw⟩).words _ hl
    have := List.all_eq_true.1 hws _ hm
    have hr' := hw.rest
    rw [hr] at hr'
    have hp : w.take 3 <+: txt!"may" := by
      have h1 : w <+: txt!"may." ++ R := ⟨_, hr'.symm⟩
      have h2 := h1.take 3
      exact h2
    have h2 : toLower (w.take 3) <+: toLower txt!"may" := hp.map lowerB
    have h3 : toLower (w.take 3) = (toLower w).take 3 := List.map_take ..
    rw [h3] at h2
    simp only [Bool.and_eq_true, Bool.not_eq_true'] at this
    rw [← Bool.not_eq_true, List.isPrefixOf_iff_prefix] at this
    exact this.1 h2
  · have h1 : s.rest = 109 :: 97 :: 121 :: 46 :: R := hr
    have : s.advs txt!"may." R = (((s.adv 109 (97 :: 121 :: 46 :: R)).adv 97 (121 :: 46 :: R)).adv 121 (46 :: R)).adv 46 R := rfl
    rw [this]
    exact .seq (.one h1 (by decide)) (.seq (.one rfl (by decide)) (.seq (.one rfl (by decide)) (.altL (.one rfl (by decide)))))

/-- One blank at the beginning of the text hides a month. -/
theorem c87_one_blank_hides_a_month (rt : Rt) (sort : List PResult → List PResult) (hs : Sorts sort) (ref : PTime) (c : Nat) (v s : Text) (hc : Blank c) (hw : toLower v ∈ monthForms)
    (hps : ∀ c, s.head? = some c → ¬ WordChar c) (h : NoDateWordsBut [toLower v] ([c] ++ v ++ s)) (hns : ¬ WholeWord (toLower v) (toLower s)) :
    mainRun rt sort ([c] ++ v ++ s) ref = .ok invalidLine := by
  have hcl : lowerB c = c := by unfold lowerB; unfold Blank at hc; split <;> omega
  have hT : toLower ([c] ++ v ++ s) = [c] ++ toLower v ++ toLower s := by simp [toLower, hcl]
  have hap : StandsApart [c] (toLower s) := by
    have := standsApart_lower (p := [c]) (s := s) ⟨by intro d hd; cases hd; exact blank_notWord hc, hps⟩
    simpa [toLower, hcl] using this
  obtain ⟨w1, w2, w3⟩ := monthForms_checks _ hw
  have hP : ¬ WholeWord (toLower v) [c] := by
    rintro ⟨a, b, e, -, -⟩
    cases hv : toLower v with
    | nil => exact w1 hv
    | cons d u =>
      rw [hv] at e w2
      have : d ∈ [c] := by rw [e]; simp
      rw [List.mem_singleton] at this
      subst this
      exact blank_notWord hc (wordChar_iff.2 (w2 d (by simp)))
  have hf := h.toFewDateWords
  obtain ⟨i1, i2, i3, i4, i5⟩ := month_others _ hw
  have hmon : Ast.monthName.search (toLower ([c] ++ v ++ s)) = none := by
    cases hm : Ast.monthName.search (toLower ([c] ++ v ++ s)) with
    | none => rfl
    | some mt =>
      exfalso
      obtain ⟨-, hle, ⟨s', -, -, -, hrel⟩, -⟩ := Re.search_some hm
      obtain ⟨x, g, B, -, -, -, -, hq, -, -, z, hz, hzp⟩ := month_place hw hT hap h hP hns hle hrel
      generalize mt.start = q at *
      have hzp : z.pos = 1 := hzp
      have hq : q ≤ 1 := hq
      obtain ⟨u, hu⟩ := hz.consumed
      have hp : z.pos = q + u.length := hu.pos
      rcases rel_alt.1 hz with hz | hz
      · rcases rel_alt.1 hz with hz | hz
        · cases hz with
          | bol hb =>
            have hq1 : q = 1 := hzp
            subst hq1
            rw [hT] at hb
            cases hb
        · have := (show Lang _ u from ⟨_, _, hz, hu⟩).minLen
          have : 2 ≤ u.length := this
          omega
      · have h1 := (show Lang _ u from ⟨_, _, hz, hu⟩).minLen
        have h1 : 1 ≤ u.length := h1
        have hq0 : q = 0 := by omega
        subst hq0
        have := rel_first (f := fun x => !isSpaceB x) (by decide +kernel) (by decide) hz (c := c) (by rw [hT]; rfl)
        rw [blank_isSpace hc] at this
        cases this
  have a := no_numbers h
  have b := no_slashes hf
  refine prints_invalid hs ?_
  clear hT
  generalize [c] ++ v ++ s = X at *
  unfold allSilent
  simp [mainPatterns, no_casualTime hf i1, no_casualDate hf i2, no_deadline_search (hf.deadlines i4), no_week_search (hf.weeks i5), no_holiday hf i3, hmon,
      a Ast.middleEndian (by simp), a Ast.timeExpr (by simp), a Ast.iso (by simp), b Ast.timeLater (by simp), b Ast.timeAgo (by simp)]

/-- `May` at the end of a sentence kills the program. -/
theorem c87_may_with_a_full_stop_kills (rt : Rt) (hrt : rt.Benign) (sort : List PResult → List PResult) (hs : Sorts sort) (ref : PTime) (x : DateTime) (hx : RefReads ref x)
    (p v s : Text) (hw : toLower v = txt!"may") (hp1 : ∀ c, p.getLast? = some c → ¬ WordChar c) (hs1 : ∀ c, s.head? = some c → ¬ WordChar c)
    (h : NoDateWordsBut [txt!"may"] (p ++ v ++ txt!"." ++ s)) (hp : ¬ WholeWord txt!"may" (toLower p)) (hns : ¬ WholeWord txt!"may" (toLower s)) (hb : ∀ c ∈ p ++ v ++ s, c < 256)
    (hone : ¬ ∃ c, Blank c ∧ p = [c]) : mainRun rt sort (p ++ v ++ txt!"." ++ s) ref = .exn .badMonth := by
  have hT : toLower (p ++ v ++ txt!"." ++ s) = toLower p ++ txt!"may" ++ (txt!"." ++ toLower s) := by
    have : toLower (p ++ v ++ txt!"." ++ s) = toLower p ++ toLower v ++ (txt!"." ++ toLower s) := by simp [toLower, lowerB]
    rw [this, hw]
  have hap : StandsApart (toLower p) (txt!"." ++ toLower s) := by
    have := standsApart_lower (p := p) (s := txt!"." ++ s) ⟨hp1, by intro d hd; cases hd; unfold WordChar; omega⟩
    simpa [toLower, lowerB] using this
  have hS : ¬ WholeWord txt!"may" (txt!"." ++ toLower s) := by
    rintro ⟨a, b, e, h1, h2⟩
    cases a with
    | nil => cases e
    | cons d a =>
      have e : 46 :: toLower s = d :: (a ++ txt!"may" ++ b) := e
      obtain ⟨rfl, e3⟩ := List.cons.inj e
      refine hns ⟨a, b, e3, fun ht c hc => h1 ht c ?_, h2⟩
      rw [List.getLast?_cons, hc]; rfl
  have hb' : ∀ c ∈ p ++ v ++ txt!"." ++ s, c < 256 := by
    intro c hc
    simp only [List.mem_append] at hc
    rcases hc with (hc | hc) | hc
    · exact hb c (by simp only [List.mem_append]; tauto)
    · rw [List.mem_singleton] at hc; omega
    · exact hb c (by simp only [List.mem_append]; tauto)
  have hone' := one_blank_lower hone
  have hmem : txt!"may" ∈ monthForms := by decide
  obtain ⟨z, mt, hz, hm, s2, hr⟩ := month_run hrt hs hmem hT hap h hp hS hb' hone' ref
  have key : mt.str 2 = txt!"may." := by
    clear hr
    obtain ⟨hsub, hle, ⟨s', hmm, hpos, hcaps, hrel⟩, -⟩ := Re.search_some hm
    obtain ⟨x, g, B, -, -, -, -, hqP, hcs, -⟩ := month_place hmem hT hap h hp hS hle hrel
    generalize mt.start = q at *
    obtain ⟨m, y, ws, he, -, -, -, -, hmg, p', d, r, rfl, hda, hdm, -⟩ := monthName_whole
    have hma : monthAlt = m := by unfold monthAlt; rw [he]; rfl
    rw [he] at hmm
    obtain ⟨s1, h1, h2⟩ := m_split hmm
    obtain ⟨z1, h1', rfl⟩ := rel_cap.1 h1
    have g1 : z1.caps = [] := h1'.caps_eq (by decide)
    have o1 := ((startSt_on _ q hle).of_consumed h1.consumed.choose_spec).1
    obtain ⟨s5, h2r, h5⟩ := Re.m_sound _ _ _ _ h2
    cases h5
    obtain ⟨C, hC, -⟩ := h2r.caps_in
    have hzp : z1.pos = (toLower p).length := by
      rw [hcs] at hC
      simp only [g1] at hC
      have := congrArg List.getLast? hC
      rw [List.getLast?_append] at this
      simp [startSt] at this
      exact this.symm
    have hrest : z1.rest = txt!"may." ++ toLower s := by
      have := o1.rest
      simp only at this
      rw [this, hzp, hT, List.append_assoc, List.drop_left]
      rfl
    have f1 := may_first (s := { z1 with caps := (1, (startSt (toLower (p ++ v ++ txt!"." ++ s)) q).pos, z1.pos) :: z1.caps }) hrest
    rw [hma] at f1
    have hd : ∀ c ∈ toLower s, isDigitB c = false := fun c hc => lower_noDigits h.digits c (by rw [hT]; simp [hc])
    have h2 : (Re.cap 2 m).m _ (fun s' => Re.m _ s' some) = some s' := h2
    rw [(First.cap (n := 2) f1).2] at h2
    · obtain ⟨s6, h6r, h6⟩ := Re.m_sound _ _ _ _ h2
      cases h6
      obtain ⟨C', hC', -⟩ := h6r.caps_in
      rw [hcs] at hC'
      have hl := congrArg List.length hC'
      simp only [List.length_append, List.length_cons, St.advs, g1, List.length_nil] at hl
      have hC0 : C' = [] := List.length_eq_zero_iff.1 (by omega)
      subst hC0
      have hsp : capSpan 2 mt.caps = some ((toLower p).length, (toLower p).length + 4) := by
        rw [← hcaps, hcs, hC', ← hzp]
        rfl
      unfold Match.str
      rw [if_neg (by decide), hsub, hsp, hT]
      show slice _ _ _ = _
      unfold slice
      rw [List.append_assoc, List.drop_left, Nat.add_sub_cancel_left]
      rfl
    · refine Re.m_complete _ _ _ some (.seq .star0 (.seq (.altR (.eps _)) (monthEnd_found ?_ ?_ ?_))) rfl
      · exact fun c hc => not_digit_iff.2 (hd c hc)
      · intro c hc
        have hc : c ∈ toLower s := hc
        obtain ⟨y, hy, rfl⟩ := List.mem_map.1 (show c ∈ s.map lowerB from hc)
        have := hb y (by simp [hy])
        unfold lowerB
        split <;> omega
      · exact (standsApart_lower (p := p) (s := s) ⟨hp1, hs1⟩).2
  have hzd : z = txt!"." := by
    rw [s2] at key
    exact List.append_cancel_left (as := txt!"may") key
  rw [hr, hzd]
  have hg : (monthConstants.get (txt!"may" ++ txt!".") : Int) = 0 := by decide
  rw [hg]
  have hy : nearestYear ref 0 1 = .exn .badMonth := by
    obtain ⟨hyr, hc⟩ := Date.year_of_ymd hx.date
    obtain ⟨⟨y1, y2, -⟩, -⟩ := refReads_us hx
    unfold nearestYear
    rw [hyr]
    simp only [Out.bind_ok]
    have : mkDate x.year 0 1 = .exn .badMonth := by
      unfold mkDate
      rw [if_neg (by omega), if_pos (by omega)]
    rw [this]
    rfl
  unfold monthRead
  rw [hy]
  rfl

/-! ## The conditions are met, and needed -/

/-- What is checked of a text with one month. -/
def monthTextChecks (p v s : Text) : Bool :=
  !p.getLast?.any isWordB && !s.head?.any isWordB && (dateWordChecks (p ++ v ++ s) [toLower v]).all id && !occursB true (toLower v) true (toLower p) &&
    !occursB true (toLower v) true (toLower s) && (p ++ v ++ s).all fun c => decide (c < 256)

theorem monthTextChecks_sound {p v s : Text} (h : monthTextChecks p v s = true) : StandsApart p s ∧ NoDateWordsBut [toLower v] (p ++ v ++ s) ∧ ¬ WholeWord (toLower v) (toLower p) ∧
    ¬ WholeWord (toLower v) (toLower s) ∧ ∀ c ∈ p ++ v ++ s, c < 256 := by
  unfold monthTextChecks at h
  simp only [Bool.and_eq_true, Bool.not_eq_true'] at h
  obtain ⟨⟨⟨⟨⟨h1, h2⟩, h3⟩, h4⟩, h5⟩, h6⟩ := h
  refine ⟨⟨fun c hc => ?_, fun c hc => ?_⟩, dateWordChecks_sound h3, occursB_sound h4, occursB_sound h5, fun c hc => by simpa using List.all_eq_true.1 h6 c hc⟩
  · rw [hc] at h1; rw [wordChar_iff]; simpa using h1
  · rw [hc] at h2; rw [wordChar_iff]; simpa using h2

/-- The conditions are met by ordinary sentences. -/
theorem c87_conditions_are_met : ∀ x ∈ [(txt!"We sail home early ", txt!"June", txt!", or by the end of it!", 6), (txt!"  ", txt!"march", txt!" is cold", 3), (txt!"", txt!"SEPT", txt!". was long", 9),
      (txt!"(", txt!"Dec", txt!".)", 12), (txt!"You never came last ", txt!"May", txt!"", 5)],
    toLower x.2.1 ∈ monthForms ∧ monthWord (toLower x.2.1) x.2.2.2 = true ∧ StandsApart x.1 x.2.2.1 ∧ NoDateWordsBut [toLower x.2.1] (x.1 ++ x.2.1 ++ x.2.2.1) ∧
      ¬ WholeWord (toLower x.2.1) (toLower x.1) ∧ ¬ WholeWord (toLower x.2.1) (toLower x.2.2.1) ∧ (∀ c ∈ x.1 ++ x.2.1 ++ x.2.2.1, c < 256) ∧ (¬ ∃ c, Blank c ∧ x.1 = [c]) ∧
      (toLower x.2.1 = txt!"may" → x.2.2.1.head? ≠ some 46) := by
  have hck : ∀ x ∈ [(txt!"We sail home early ", txt!"June", txt!", or by the end of it!", 6), (txt!"  ", txt!"march", txt!" is cold", 3), (txt!"", txt!"SEPT", txt!". was long", 9),
      (txt!"(", txt!"Dec", txt!".)", 12), (txt!"You never came last ", txt!"May", txt!"", 5)],
    toLower x.2.1 ∈ monthForms ∧ monthWord (toLower x.2.1) x.2.2.2 = true ∧ monthTextChecks x.1 x.2.1 x.2.2.1 = true ∧ (x.1.all isSpaceB && x.1.length == 1) = false ∧
      (toLower x.2.1 = txt!"may" → x.2.2.1.head? ≠ some 46) := by decide +kernel
  intro x hx
  obtain ⟨h1, h2, h3, h4, h5⟩ := hck x hx
  obtain ⟨g1, g2, g3, g4, g5⟩ := monthTextChecks_sound h3
  refine ⟨h1, h2, g1, g2, g3, g4, g5, ?_, h5⟩
  rintro ⟨c, hc, e⟩
  rw [e] at h4
  simp [blank_isSpace hc] at h4

/-- Texts that meet the conditions of the two theorems on what goes wrong, and what is printed of them. -/
theorem c87_failing_conditions_are_met :
    (toLower txt!"March" ∈ monthForms ∧ NoDateWordsBut [toLower txt!"March"] (txt!" " ++ txt!"March" ++ txt!" was cold") ∧ ¬ WholeWord (toLower txt!"March") (toLower txt!" was cold")) ∧
    (NoDateWordsBut [txt!"may"] (txt!"We met early in " ++ txt!"May" ++ txt!"." ++ txt!" You know why.") ∧ ¬ WholeWord txt!"may" (toLower txt!"We met early in ") ∧
      ¬ WholeWord txt!"may" (toLower txt!" You know why.")) := by
  have h1 : monthTextChecks txt!" " txt!"March" txt!" was cold" = true := by decide +kernel
  have h2 : monthTextChecks txt!"We met early in " txt!"May" txt!". You know why." = true := by decide +kernel
  have h3 : occursB true txt!"may" true (toLower txt!" You know why.") = false := by decide +kernel
  obtain ⟨-, a2, -, a4, -⟩ := monthTextChecks_sound h1
  obtain ⟨-, b2, b3, -⟩ := monthTextChecks_sound h2
  exact ⟨⟨by decide, a2, a4⟩, b2, b3, occursB_sound h3⟩

/-- **C87: the conditions are needed.** Inside a word, beside another month, beside a number and beside another word for a date, something else is printed. -/
theorem c87_conditions_are_needed : ∀ x ∈ [(txt!"the ", txt!"ing band"), (txt!"a", txt!""), (txt!"january, ", txt!""), (txt!"", txt!" 2018 was cold"), (txt!"tomorrow or in ", txt!"")],
    ∃ l, mainRun (Rt.usual 0) sortKeep (x.1 ++ txt!"march" ++ x.2) exampleRef = .ok l ∧ l ≠ foundLine ++ (DateTime.mk 2019 3 1 0 0 0).format := by
  have h : ∀ x ∈ [(txt!"the ", txt!"ing band"), (txt!"a", txt!""), (txt!"january, ", txt!""), (txt!"", txt!" 2018 was cold"), (txt!"tomorrow or in ", txt!"")],
    (match mainRun (Rt.usual 0) sortKeep (x.1 ++ txt!"march" ++ x.2) exampleRef with
      | .ok l => l != foundLine ++ (DateTime.mk 2019 3 1 0 0 0).format | _ => false) = true := by decide +kernel
  intro x hx
  have := h x hx
  split at this
  · rename_i l hl
    exact ⟨l, hl, by simpa using this⟩
  · cases this

end Chrono.Props
