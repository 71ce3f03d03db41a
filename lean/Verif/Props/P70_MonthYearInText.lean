import Verif.Props.P68_MonthDayInText
/-!
# C89: a month and a year anywhere in a text
-/
namespace Chrono.Props
open Chrono Chrono.Spec Chrono.Boost

/-- A text with a month, a year and no other number. -/
structure MonthYearAt (X P w : Text) (b : Nat) (Y S : Text) : Prop where
  text : X = P ++ w ++ [b] ++ (Y ++ S)
  low : toLower X = X
  no92 : 92 ∉ X
  month : w ∈ monthForms
  blank : Blank b
  before : ∀ c ∈ P, isDigitB c = false
  start : ∀ c, P.getLast? = some c → ¬ WordChar c
  digits : ∀ c ∈ Y, isDigitB c = true
  len : Y.length = 4
  after : ∀ c ∈ S, isDigitB c = false
  apart : ∀ c, S.head? = some c → ¬ WordChar c
  noBe : ∀ g r, Blanks g → S = g ++ txt!"be" ++ r → ∃ c, r.head? = some c ∧ WordChar c
  noP : ∀ v ∈ monthForms, ¬ WholeWord v P
  noS : ∀ v ∈ monthForms, ¬ WholeWord v ([b] ++ (Y ++ S))
  ordinals : ∀ w m gap o d, monthWord w m = true → Gap gap → 1 ≤ d → d ≤ 31 → words o = ordinalName d → ¬ w ++ gap ++ o <:+: X

theorem my_noDigit {X P w : Text} {b : Nat} {Y S : Text} (h : MonthYearAt X P w b Y S) : ∀ c ∈ P ++ w ++ [b], isDigitB c = false := by
  intro c hc
  simp only [List.mem_append, List.mem_singleton] at hc
  rcases hc with (hc | hc) | rfl
  · exact h.before c hc
  · have : ∀ w ∈ monthForms, ∀ c ∈ w, isDigitB c = false := by decide
    exact this w h.month c hc
  · exact blank_noDigit h.blank

/-- The spellings in the pattern are spellings of months. -/
theorem spelled_listed {u : Text} (h : monthSpelled u = true) (h92 : 92 ∉ u) : u ∈ monthWordsList := by
  unfold monthSpelled at h
  simp only [Bool.or_eq_true, List.contains_iff_mem, List.any_eq_true, Bool.and_eq_true, decide_eq_true_eq] at h
  rcases h with (h | ⟨k, hk, rfl, hd⟩) | h
  · have : ∀ w ∈ monthForms, w ∈ monthWordsList := by decide +kernel
    exact this u h
  · have : ∀ w ∈ monthForms, keepsDot w = true → w ++ txt!"." ∈ monthWordsList := by decide +kernel
    exact this k hk hd
  · exact absurd h h92

/-- Matches of the month-name pattern in a text with a month and a year. -/
theorem my_match {X P w : Text} {b : Nat} {Y S : Text} (h : MonthYearAt X P w b Y S) {q : Nat} (hq : q ≤ X.length) {s' : St} (hrel : Rel Ast.monthName (startSt X q) s') :
    s'.pos = (P ++ w ++ [b] ++ Y).length ∧ s'.caps = [(3, P.length + w.length + 1, P.length + w.length + 1 + Y.length), (2, P.length, P.length + w.length), (1, q, P.length)] ∧
      ∃ z, Rel monthLead (startSt X q) z ∧ z.pos = P.length := by
  have hY0 : Y ≠ [] := by have := h.len; rintro rfl; simp at this
  rcases month_cases h.low h.no92 hq hrel with ⟨A, k, x, gg, B, e, hk, hx, hgg, hA, hB, -, -, -, -, z, hz, hzr⟩ | ⟨A, u, g, Y', E', B, e, hu, hg, hY, hl, hE, hB, hpos, hcaps, hz⟩
  · exact (month_then_number h.text h.month h.blank h.start h.digits hY0 h.noP h.noS e hk hx hgg hA hB hz hzr).elim
  have hEB : ∀ c, (E' ++ B).head? = some c → isDigitB c = false := by
    have hb0 : E' = [] → ∀ c, (E' ++ B).head? = some c → isDigitB c = false := by
      rintro rfl c hc
      rw [← Bool.not_eq_true]
      intro hd
      refine hB c hc (wordChar_iff.2 ?_)
      have : c < 256 := by unfold isDigitB at hd; simp at hd; omega
      have key : ∀ d < 256, isDigitB d = true → isWordB d = true := by decide +kernel
      exact key c this hd
    rcases hE with hE | hE | hE | ⟨gg, hgg, rfl⟩
    · exact hb0 hE
    · subst hE; intro c hc; cases hc; rfl
    · subst hE; intro c hc; cases hc; rfl
    · intro c hc
      cases gg with
      | nil => cases hc; rfl
      | cons y t => cases hc; exact blank_noDigit (hgg _ (by simp))
  have hY'0 : Y' ≠ [] := by rintro rfl; simp at hl
  obtain ⟨hS, -⟩ := number_place (my_noDigit h) h.digits h.after hY'0 hY hEB (D' := Y') (A := A ++ u ++ g) (B := E' ++ B) (by rw [← h.text, e]; simp)
  have hX2 : A ++ u ++ g ++ (Y' ++ (E' ++ B)) = P ++ w ++ [b] ++ (Y ++ S) := e.symm.trans h.text
  rw [hS] at hX2
  have hlen := congrArg List.length hX2
  have hl' := h.len
  rw [List.length_append, List.length_append (as := P ++ w ++ [b]), List.length_append (as := Y'), List.length_append (as := Y), hl, hl'] at hlen
  obtain ⟨e1, e2⟩ := List.append_inj hX2 (by omega)
  obtain ⟨rfl, -⟩ := List.append_inj e2 (hl.trans hl'.symm)
  obtain ⟨rfl, rfl, rfl⟩ := month_before (spelled_listed hu (fun hc => h.no92 (by rw [e]; simp [hc]))) hg h.month h.blank e1
  obtain rfl : E' = [] := by
    rcases hE with hE | rfl | rfl | ⟨gg, hgg, rfl⟩
    · exact hE
    · exact absurd (wordChar_iff.2 (by decide)) (h.apart 97 (by rw [← hS]; rfl))
    · exact absurd (wordChar_iff.2 (by decide)) (h.apart 98 (by rw [← hS]; rfl))
    · obtain ⟨c, hc, hw⟩ := h.noBe gg B hgg hS.symm
      exact absurd hw (hB c hc)
  refine ⟨?_, ?_, hz⟩
  · rw [hpos]; simp
  · rw [hcaps rfl]; rfl

/-- The month-name pattern, with the year spelled out. -/
theorem monthName_yearly : ∃ m r, Ast.monthName = .seq (.cap 1 monthLead) (.seq (.cap 2 m) (.seq sps (.seq (.alt (.seq (.alt (.one (.set true false [.one 44, .one 45])) .eps)
      (.seq sps (.seq (.cap 3 (.seq dg1 (.seq dg1 (.seq dg1 dg1)))) (.alt r .eps)))) .eps) (.look false monthEnd)))) ∧
    (monthForms.all fun k => (m.fullMatch k).isSome) = true ∧ m.free = true :=
  ⟨_, _, rfl, by decide +kernel, by decide +kernel⟩

theorem class_digit {c : Nat} (hc : isDigitB c = true) : (Single.set true false [.range 48 57]).test c = true := by
  have : c < 256 := by unfold isDigitB at hc; simp at hc; omega
  have key : ∀ c < 256, isDigitB c = true → (Single.set true false [.range 48 57]).test c = true := by decide +kernel
  exact key c this hc

theorem my_found {X P w : Text} {b : Nat} {Y S : Text} (h : MonthYearAt X P w b Y S) (hb : ∀ c ∈ X, c < 256) (h1 : ¬ ∃ c, Blank c ∧ P = [c]) : ∃ mt, Ast.monthName.search X = some mt := by
  cases hs : Ast.monthName.search X with
  | some mt => exact ⟨mt, rfl⟩
  | none =>
    exfalso
    obtain ⟨m, r, he, hmf, hfree⟩ := monthName_yearly
    obtain ⟨q, hq, s1, r1, p1, e1⟩ := monthLead_found (T := X) (P := P) (R := w ++ ([b] ++ (Y ++ S))) (by rw [h.text]; simp) (fun c hc => not_digit_iff.2 (h.before c hc))
      (fun c hc => hb c (by rw [h.text]; simp [hc])) h.start h1
    have hqX : q ≤ X.length := by rw [h.text]; simp; omega
    obtain ⟨s2, r2, c2, e2⟩ := (lang_of_fullMatch (List.all_eq_true.1 hmf w h.month)).rel hfree (z := { s1 with caps := (1, q, s1.pos) :: s1.caps }) e1
    have r3 : ∃ s3, Rel sps { s2 with caps := (2, s1.pos, s2.pos) :: s2.caps } s3 ∧ s3.rest = Y ++ S :=
      ⟨_, rel_star_one.2 ⟨[b], Y ++ S, e2, fun c hc => by rw [List.mem_singleton] at hc; subst hc; exact class_space h.blank, rfl⟩, rfl⟩
    obtain ⟨s3, r3, e3⟩ := r3
    have hd : Lang (.seq dg1 (.seq dg1 (.seq dg1 dg1))) Y := by
      have hdig := h.digits
      obtain ⟨a, b, c, d, rfl⟩ : ∃ a b c d, Y = [a, b, c, d] := by
        have := h.len
        match Y, this with
        | [a, b, c, d], _ => exact ⟨a, b, c, d, rfl⟩
      exact ⟨startSt [a, b, c, d] 0, _, .seq (.one rfl (class_digit (hdig a (by simp)))) (.seq (.one rfl (class_digit (hdig b (by simp)))) (.seq (.one rfl (class_digit (hdig c (by simp))))
        (.one rfl (class_digit (hdig d (by simp)))))), ⟨rfl, rfl, rfl⟩⟩
    obtain ⟨s4, r4, c4, e4⟩ := hd.rel (by decide) e3
    have r5 : Rel (.look false monthEnd) { s4 with caps := (3, s3.pos, s4.pos) :: s4.caps } { s4 with caps := (3, s3.pos, s4.pos) :: s4.caps } := by
      refine monthEnd_found ?_ ?_ ?_
      · show NoDigits s4.rest; rw [e4]; exact fun c hc => not_digit_iff.2 (h.after c hc)
      · show ∀ c ∈ s4.rest, _; rw [e4]; exact fun c hc => hb c (by rw [h.text]; simp [hc])
      · show ∀ c, s4.rest.head? = _ → _; rw [e4]; exact h.apart
    refine Re.search_none hs q hqX { s4 with caps := (3, s3.pos, s4.pos) :: s4.caps } ?_
    rw [he]
    exact .seq (.cap r1) (.seq (.cap r2) (.seq r3 (.seq (.altL (.seq (.altR (.eps _)) (.seq .star0 (.seq (.cap r4) (.altR (.eps _)))))) r5)))

/-- A number of four digits is no day. -/
theorem my_middle {X P w : Text} {b : Nat} {Y S : Text} (h : MonthYearAt X P w b Y S) : Ast.middleEndian.search X = none := by
  cases hs : Ast.middleEndian.search X with
  | none => rfl
  | some mt =>
    exfalso
    obtain ⟨-, hq, ⟨s', -, -, -, hrel⟩, -⟩ := Re.search_some hs
    generalize mt.start = q at hq hrel
    obtain ⟨wk, m, gp, dd, mkr, ap, rng, tw, rng', yr, ws, he, hwg, hmw, hws, -, -, hmg, hga, hgg, -, -, hord, hdl, hkw, hkg, -, -, hap, rfl, htw, hyr⟩ := middleEndian_whole
    rw [he] at hrel
    simp only [rel_seq] at hrel
    obtain ⟨s1, h1, s2, h2, s3, h3, s4, h4, s5, h5, s6, h6, s7, h7, -⟩ := hrel
    have h7 := rel_seq.2 h7
    obtain ⟨z1, h1', rfl⟩ := rel_cap.1 h1
    obtain ⟨-, rfl⟩ := rel_wb.1 h1'
    obtain ⟨z3, h3', rfl⟩ := rel_cap.1 h3
    obtain ⟨z5, h5', rfl⟩ := rel_cap.1 h5
    obtain ⟨-, rfl⟩ := rel_look.1 h6
    obtain ⟨u2, c2⟩ := h2.consumed
    obtain ⟨u3, c3⟩ := h3'.consumed
    obtain ⟨u4, c4⟩ := h4.consumed
    obtain ⟨u5, c5⟩ := h5'.consumed
    have r2 : X.drop q = u2 ++ s2.rest := c2.rest
    have r3 : s2.rest = u3 ++ z3.rest := c3.rest
    have r4 : z3.rest = u4 ++ s4.rest := c4.rest
    have r5 : s4.rest = u5 ++ z5.rest := c5.rest
    have htext : X = X.take q ++ u2 ++ u3 ++ u4 ++ (u5 ++ z5.rest) := by
      calc X = X.take q ++ X.drop q := (List.take_append_drop _ _).symm
        _ = _ := by rw [r2, r3, r4, r5]; simp only [List.append_assoc]
    have i3 : u3 <:+: X := ⟨X.take q ++ u2, u4 ++ (u5 ++ z5.rest), by rw [← List.append_assoc]; exact htext.symm⟩
    have i5 : u5 <:+: X := ⟨X.take q ++ u2 ++ u3 ++ u4, z5.rest, by rw [List.append_assoc _ u5]; exact htext.symm⟩
    have hmem := (show Lang m u3 from ⟨_, _, h3', c3⟩).words _ hmw
    rw [lower_infix h.low i3] at hmem
    obtain ⟨n, -, hn⟩ := List.any_eq_true.1 (List.all_eq_true.1 hws _ hmem)
    have hgap : Gap u4 := gap_of ⟨_, _, h4, c4⟩ hga
    have hul := month_words_list hn
    rcases ordinals_rel hord h5' with hl | hw
    swap
    · obtain ⟨k, k1, k2, ho⟩ := hw u5 c5 (lower_infix h.low i5)
      refine absurd ⟨X.take q ++ u2, z5.rest, ?_⟩ (h.ordinals u3 n u4 u5 k hn hgap k1 k2 ho)
      rw [← List.append_assoc, ← List.append_assoc, List.append_assoc _ u5]
      exact htext.symm
    rw [hdl] at hl
    obtain ⟨y5, hl1, hl2⟩ := rel_seq.1 hl
    obtain ⟨y6, hl1', rfl⟩ := rel_cap.1 hl1
    obtain ⟨v1, d1⟩ := hl1'.consumed
    obtain ⟨v2, d2⟩ := hl2.consumed
    have q1 : s4.rest = v1 ++ y6.rest := d1.rest
    have q2 : y6.rest = v2 ++ z5.rest := d2.rest
    obtain ⟨v1n, v1d⟩ := isDigits_of (show Lang dg12 v1 from ⟨_, _, hl1', d1⟩) (by decide +kernel) (by decide)
    have v1l : v1.length ≤ 2 := (show Lang dg12 v1 from ⟨_, _, hl1', d1⟩).maxLen 2 (by decide)
    have hkm := (show Lang mkr v2 from ⟨_, _, hl2, d2⟩).words _ hkw
    have hb7 : ∀ c, z5.rest.head? = some c → isSpaceB c = true := by
      intro c hc
      exact rel_first (f := isSpaceB) (by decide +kernel) (by decide) h7 hc
    have hv2 : ∀ c, (v2 ++ z5.rest).head? = some c → isDigitB c = false := by
      intro c hc
      cases v2 with
      | nil => exact blank_noDigit (isSpace_blank (hb7 c hc))
      | cons a v2 =>
        cases hc
        have key : ∀ v ∈ [txt!"st", txt!"nd", txt!"rd", txt!"th", []], ∀ a, v.head? = some a → 97 ≤ a := by decide
        have := key _ hkm (lowerB c) rfl
        unfold lowerB at this
        unfold isDigitB
        simp only [Bool.and_eq_false_iff, decide_eq_false_iff_not]
        split at this <;> omega
    -- what stands before the number is the month and the blank
    have hsplit : X.take q ++ u2 ++ u3 ++ u4 = P ++ w ++ [b] := by
      obtain ⟨c, v1', rfl⟩ := List.exists_cons_of_ne_nil v1n
      have hdc : isDigitB c = true := digit_iff.1 (v1d c (by simp))
      have hne : u3 ++ u4 ≠ [] := by
        intro h0
        rw [(List.append_eq_nil_iff.1 h0).1] at hul
        have := month_lasts _ hul
        cases this
      obtain ⟨A, x, hA⟩ : ∃ A x, u3 ++ u4 = A ++ [x] := by
        rcases List.eq_nil_or_concat (u3 ++ u4) with h0 | ⟨A, x, h0⟩
        · exact absurd h0 hne
        · exact ⟨A, x, by simpa using h0⟩
      rcases before_digit (my_noDigit h) (H := Y) (fun c hc => .inl (h.digits c hc)) h.after (A := X.take q ++ u2 ++ A) (x := x) (c := c) (B := v1' ++ y6.rest) (by
        rw [← h.text]
        refine htext.trans ?_
        rw [← r5, q1, List.append_assoc _ u3 u4, hA]
        simp) hdc with hx | hx
      · rw [← hx, List.append_assoc _ u3 u4, hA]
        simp
      · exfalso
        have : x ∈ u4 ∨ u3.getLast? = some x := by
          have hl := congrArg List.getLast? hA
          rw [List.getLast?_concat, List.getLast?_append] at hl
          cases h4 : u4.getLast? with
          | none => rw [h4] at hl; exact .inr (by simpa using hl)
          | some y =>
            rw [h4] at hl
            simp at hl
            exact .inl (hl ▸ List.mem_of_getLast? h4)
        rcases this with h0 | h0
        · have := hgap x h0
          unfold Blank at this
          unfold isDigitB at hx
          simp at hx
          omega
        · have := month_lasts _ hul
          rw [h0] at this
          simp at this
          rcases hx with hx | hx
          · rw [this.1.2] at hx; cases hx
          · exact this.2 hx
    have hDR : v1 ++ (v2 ++ z5.rest) = Y ++ S := by
      have := htext
      rw [hsplit, ← r5, q1, q2] at this
      exact List.append_cancel_left (this.symm.trans h.text)
    obtain ⟨rfl, -⟩ := digits_split (fun c hc => digit_iff.1 (v1d c hc)) h.digits hv2 (fun c hc => h.after c (List.mem_of_mem_head? hc)) hDR
    have := h.len
    omega

/-- The character and the blanks before a month. -/
theorem lead_length {X P R : Text} (e : X = P ++ R) (h4 : ¬ ∃ g, Blanks g ∧ g.length = 4 ∧ g <:+ P) {q : Nat} (hq : q ≤ X.length) {z : St} (h : Rel monthLead (startSt X q) z) (hz : z.pos = P.length) :
    q ≤ P.length ∧ P.length ≤ q + 4 := by
  obtain ⟨v, cv⟩ := h.consumed
  have hp : z.pos = q + v.length := cv.pos
  rcases rel_alt.1 h with h | h
  · rcases rel_alt.1 h with h | h
    · obtain ⟨-, h⟩ := rel_bol.1 h
      have : z.pos = q := by rw [h]; rfl
      omega
    · obtain ⟨y, k1, k2⟩ := rel_seq.1 h
      obtain ⟨v1, d1⟩ := k1.consumed
      obtain ⟨v2, d2⟩ := k2.consumed
      have l1 : v1.length ≤ 1 := (show Lang _ v1 from ⟨_, _, k1, d1⟩).maxLen 1 rfl
      have hv2 : Blanks v2 := fun c hc => isSpace_blank ((show Lang (.seq sp1 sps) v2 from ⟨_, _, k2, d2⟩).allB isSpaceB (by decide +kernel) c hc)
      have ev : v = v1 ++ v2 := cv.word_eq (d1.trans d2)
      have hsuf : v2 <:+ P := by
        have h1 : X.take q ++ (v ++ z.rest) = P ++ R := by
          have : X.drop q = v ++ z.rest := cv.rest
          rw [← this, List.take_append_drop, e]
        rw [← List.append_assoc] at h1
        obtain ⟨h2, -⟩ := List.append_inj h1 (by rw [List.length_append, List.length_take, Nat.min_eq_left hq]; omega)
        exact ⟨X.take q ++ v1, by rw [← h2, ev]; simp⟩
      have : v2.length < 4 := by
        by_contra hge
        refine h4 ⟨v2.drop (v2.length - 4), fun c hc => hv2 c (List.mem_of_mem_drop hc), by simp; omega, (List.drop_suffix _ _).trans hsuf⟩
      have := congrArg List.length ev
      simp at this
      omega
  · have l1 : v.length ≤ 1 := (show Lang _ v from ⟨_, _, h, cv⟩).maxLen 1 rfl
    omega

theorem my_groups {X P w : Text} {b : Nat} {Y S : Text} (h : MonthYearAt X P w b Y S) (h4 : ¬ ∃ g, Blanks g ∧ g.length = 4 ∧ g <:+ P) {mt : Match} (hm : Ast.monthName.search X = some mt) :
    mt.start ≤ P.length ∧ P.length ≤ mt.start + 4 ∧ mt.stop = (P ++ w ++ [b] ++ Y).length ∧ mt.str 2 = w ∧ mt.str 3 = Y ∧ mt.str 4 = [] ∧ mt.lengthOf 1 = P.length - mt.start ∧
      (mt.str 0).length = mt.stop - mt.start ∧ Ast.monthName.search (X.drop mt.stop) = none := by
  have hok := Re.search_ok hm
  obtain ⟨hsub, hle, ⟨s', -, hpos, hcaps, hrel⟩, -⟩ := Re.search_some hm
  obtain ⟨hps, hcs, z, hz, hzp⟩ := my_match h hle hrel
  have hX := h.text
  have hcap : mt.caps = _ := hcaps.symm.trans hcs
  obtain ⟨b1, b2⟩ := lead_length (R := w ++ [b] ++ (Y ++ S)) (by rw [hX]; simp) h4 hle hz hzp
  refine ⟨b1, b2, by rw [← hpos, hps], ?_, ?_, ?_, ?_, hok.len.symm, ?_⟩
  · unfold Match.str
    rw [if_neg (by decide), hcap, hsub]
    show slice _ _ _ = _
    unfold slice
    rw [hX, List.append_assoc, List.append_assoc, List.drop_left, Nat.add_sub_cancel_left, List.take_left]
  · unfold Match.str
    rw [if_neg (by decide), hcap, hsub]
    show slice _ _ _ = _
    unfold slice
    rw [hX, show P.length + w.length + 1 = (P ++ w ++ [b]).length by simp; omega, List.drop_left, Nat.add_sub_cancel_left, List.take_left]
  · unfold Match.str
    rw [if_neg (by decide), hcap]
    rfl
  · show (mt.str 1).length = _
    unfold Match.str
    rw [if_neg (by decide), hcap, hsub]
    show (slice _ _ _).length = _
    unfold slice
    rw [List.length_take, List.length_drop, hX]
    simp
    omega
  · have hd : X.drop mt.stop = S := by
      rw [← hpos, hps, hX, show P ++ w ++ [b] ++ (Y ++ S) = P ++ w ++ [b] ++ Y ++ S by simp, List.drop_left]
    have hi : S <:+: X := ⟨P ++ w ++ [b] ++ Y, [], by rw [hX]; simp⟩
    have hlow := lower_infix h.low hi
    rw [hd]
    cases hs : Ast.monthName.search S with
    | none => rfl
    | some m2 =>
      exfalso
      obtain ⟨-, hle2, ⟨s2, -, -, -, hrel2⟩, -⟩ := Re.search_some hs
      obtain ⟨A, k, x, gg, B, e, hk, hx, hgg, hA, hB, -⟩ := month_match hlow (fun hc => h.no92 (hi.subset hc)) (no_long_number h.after) hle2 hrel2
      have hbnd : ∀ c, (x ++ gg ++ B).head? = some c → ¬ WordChar c := by
        intro c hc
        rcases hx with rfl | ⟨rfl, -⟩
        · cases gg with
          | nil => exact hB c hc
          | cons z g => cases hc; exact blank_notWord (hgg _ (by simp))
        · cases hc; unfold WordChar; omega
      obtain ⟨k1, k2, -⟩ := monthForms_checks k hk
      refine h.noS k hk ⟨[b] ++ Y ++ A, x ++ gg ++ B, by rw [e]; simp, fun _ c hc => ?_, fun _ => hbnd⟩
      cases A with
      | nil =>
        exfalso
        cases k with
        | nil => exact k1 rfl
        | cons y t => exact h.apart y (by rw [e]; rfl) (wordChar_iff.2 (k2 y (by simp)))
      | cons y A =>
        refine hA c ?_
        rw [List.getLast?_append] at hc
        simpa using hc

/-- What the parser makes of a month and a year. -/
theorem monthYear_reads {rt : Rt} {g : Globals} {tx : Text} {mt : Match} {ref : PTime} {idx m y : Nat} (hy1 : 100 ≤ y) (hy2 : y < 10000)
    (h1 : mt.lengthOf 1 ≤ (mt.str 0).length) (g2 : monthConstants.get (mt.str 2) = m) (g3 : mt.str 3 = four y) (g4 : mt.str 4 = []) :
    ∃ res, monthNameExtract rt g tx mt ref idx = .ok res ∧ res.index = PResult.toU32 idx ∧ res.text = (mt.str 0).drop (mt.lengthOf 1) ∧ (res.startDate.get .year = y ∧ res.startDate.get .month = m ∧ res.startDate.get .mday = 1 ∧ res.startDate.get .hour = 0 ∧ res.startDate.get .min = 0 ∧ res.startDate.get .sec = 0) ∧ res.hasEnd = false ∧
      ∀ t, t ≠ Tag.monthName → res.getTag t = false := by
  unfold monthNameExtract
  have : substr (mt.str 0) (mt.lengthOf 1) = .ok ((mt.str 0).drop (mt.lengthOf 1)) := by unfold substr; rw [if_pos h1]
  have hst : stoiCaught (four y) = .ok (some (y : Int)) := by unfold stoiCaught; rw [stoi_four hy2]
  have he : eraYear (y : Int) [] = y := by unfold eraYear; simp; omega
  rw [this, g2, g3, g4, hst]
  simp only [Out.bind_ok, Out.pure_eq, he]
  rw [if_neg (by simp [four])]
  show ∃ res, (if (y : Int) ≠ -1 then _ else _) = _ ∧ _
  rw [if_pos (by omega)]
  have tag : ∀ r : PResult, r.tags = (fun _ => none) → ∀ t, t ≠ Tag.monthName → (r.setTag .monthName).getTag t = false := by
    intro r hr t ht
    unfold PResult.setTag
    rw [hr]
    simp [PResult.getTag, ht]
  exact ⟨_, rfl, rfl, rfl, ⟨rfl, rfl, rfl, rfl, rfl, rfl⟩, rfl, tag _ rfl⟩

/-- A month and a year in a text: nothing else is read. -/
theorem my_run (rt : Rt) (hrt : Rt.Defined rt) (sort : List PResult → List PResult) (hs : Sorts sort) (ref : PTime) (x : DateTime) (hx : RefReads ref x)
    (p v : Text) (b m y : Nat) (s : Text) (hw : toLower v ∈ monthForms) (hm : monthWord (toLower v) m = true) (hps : ∀ c, p.getLast? = some c → ¬ WordChar c) (hbl : Blank b)
    (h100 : 100 ≤ y) (h9999 : y ≤ 9999) (hnext : ∀ c, s.head? = some c → ¬ WordChar c) (hbe : ∀ g r, Blanks g → toLower s = g ++ txt!"be" ++ r → ∃ c, r.head? = some c ∧ WordChar c)
    (hhalf : ¬ SaysHalf s) (hone : ¬ ∃ c, Blank c ∧ p = [c]) (hfour : ¬ ∃ g, Blanks g ∧ g.length = 4 ∧ g <:+ p) (hp : NoDigits p) (hd : NoDigits s) (hb : ∀ c ∈ p ++ s, c < 256)
    (h : FewDateWords [toLower v] (p ++ v ++ [b] ++ (four y ++ s))) (hnp : ¬ WholeWord (toLower v) (toLower p)) (hns : ¬ WholeWord (toLower v) (toLower s))
    (hlen : (p ++ v ++ [b] ++ (four y ++ s)).length < 4294967296) :
    ∃ r : PResult, Reads r.startDate ⟨y, m, 1, 0, 0, 0⟩ ∧ r.hasEnd = false ∧ r.getTag .extractTZ = false ∧
      mainRun rt sort (p ++ v ++ [b] ++ (four y ++ s)) ref = (do let d ← r.toDate; return foundLine ++ d) := by
  have lb : ∀ {g : Text}, Blanks g → toLower g = g := by
    intro g hg
    refine (List.map_congr_left fun c hc => ?_).trans (List.map_id _)
    have := hg c hc
    unfold Blank at this
    unfold lowerB
    rw [if_neg (by omega)]
    rfl
  have hT : toLower (p ++ v ++ [b] ++ (four y ++ s)) = toLower p ++ toLower v ++ [b] ++ (four y ++ toLower s) := by
    simp only [toLower_append, toLower_four, lb (g := [b]) (fun c hc => by rw [List.mem_singleton] at hc; rw [hc]; exact hbl)]
  generalize hX : p ++ v ++ [b] ++ (four y ++ s) = X at *
  have hD := digits_four y
  have hD0 : four y ≠ [] := by simp [four]
  have hst : ∀ c, (toLower p).getLast? = some c → ¬ WordChar c := by
    intro c hc
    unfold toLower at hc
    rw [List.getLast?_map] at hc
    obtain ⟨z, hz', rfl⟩ := Option.map_eq_some_iff.1 hc
    rw [wordChar_lower]
    exact hps z hz'
  have hnx : ∀ c, (toLower s).head? = some c → ¬ WordChar c := by
    intro c hc
    unfold toLower at hc
    rw [List.head?_map] at hc
    obtain ⟨z, hz', rfl⟩ := Option.map_eq_some_iff.1 hc
    rw [wordChar_lower]
    exact hnext z hz'
  have lbyte : ∀ c, c < 256 → lowerB c < 256 := by intro c hc; unfold lowerB; split <;> omega
  have hvb : ∀ w ∈ monthForms, ∀ c ∈ w, c < 256 := by decide
  have hbX : ∀ c ∈ toLower X, c < 256 := by
    intro c hc
    rw [hT] at hc
    simp only [List.mem_append, List.mem_singleton] at hc
    rcases hc with ((hc | hc) | rfl) | hc | hc
    · obtain ⟨z, hz, rfl⟩ := List.mem_map.1 (show c ∈ p.map lowerB from hc)
      exact lbyte z (hb z (by simp [hz]))
    · exact hvb _ hw c hc
    · unfold Blank at hbl; omega
    · have := hD c hc; unfold isDigitB at this; simp at this; omega
    · obtain ⟨z, hz, rfl⟩ := List.mem_map.1 (show c ∈ s.map lowerB from hc)
      exact lbyte z (hb z (by simp [hz]))
  have hap : StandsApart (toLower p) ([b] ++ (four y ++ toLower s)) := ⟨hst, fun c hc => by cases hc; exact blank_notWord hbl⟩
  have hT' : toLower X = toLower p ++ toLower v ++ ([b] ++ (four y ++ toLower s)) := by rw [hT]; simp
  have hnS : ¬ WholeWord (toLower v) ([b] ++ (four y ++ toLower s)) := by
    intro hh
    obtain ⟨v1, v2, -⟩ := monthForms_checks _ hw
    have hvd : ∀ w ∈ monthForms, ∀ c ∈ w, isDigitB c = false := by decide
    obtain ⟨a, e, he, ha, hb'⟩ := hh
    have hwd : ∀ c ∈ four y, isWordB c = true := by
      intro c hc
      have hd := hD c hc
      have : c < 256 := by unfold isDigitB at hd; simp at hd; omega
      have key : ∀ d < 256, isDigitB d = true → isWordB d = true := by decide +kernel
      exact key c this hd
    rcases word_elsewhere hD0 hwd v1 v2 ⟨fun c hc => by cases hc; exact blank_notWord hbl, hnx⟩ (ha rfl) (hb' rfl) (show [b] ++ four y ++ toLower s = _ by rw [← he]; simp) with h | ⟨-, h, -⟩ | h
    · obtain ⟨a, e, he, -, -⟩ := h
      obtain ⟨c, t, hc⟩ := List.exists_cons_of_ne_nil v1
      have : c ∈ [b] := by rw [he, hc]; simp
      rw [List.mem_singleton] at this
      subst this
      exact blank_notWord hbl (wordChar_iff.2 (v2 c (by rw [hc]; simp)))
    · have h1 : dig (y / 1000) ∈ toLower v := by rw [h]; simp [four]
      have h2 := hvd _ hw _ h1
      rw [dig_digit] at h2
      cases h2
    · exact hns h
  have hall := other_month hT' hap h hnp hnS
  have hmy : MonthYearAt (toLower X) (toLower p) (toLower v) b (four y) (toLower s) :=
    { text := hT, low := toLower_toLower X, no92 := lower_no92 h.backslash, month := hw, blank := hbl, before := lower_noDigits hp, start := hst, digits := hD
      len := by simp [four]
      after := lower_noDigits hd, apart := hnx, noBe := hbe, noP := fun v hv hh => hall v hv (.inl hh), noS := fun v hv hh => hall v hv (.inr hh), ordinals := h.dates }
  have hfour' : ¬ ∃ g, Blanks g ∧ g.length = 4 ∧ g <:+ toLower p := by
    rintro ⟨g, h1, h2, t, h3⟩
    obtain ⟨t', g', rfl, -, hg'⟩ := List.map_eq_append_iff.1 (show p.map lowerB = t ++ g from h3.symm)
    refine hfour ⟨g', fun c hc => ?_, by rw [← h2, ← hg']; simp, List.suffix_append _ _⟩
    have := h1 (lowerB c) (by rw [← hg']; exact List.mem_map_of_mem hc)
    unfold lowerB at this
    unfold Blank at this ⊢
    split at this <;> omega
  obtain ⟨mt, hmt⟩ := my_found hmy hbX (one_blank_lower hone)
  obtain ⟨b1, b2, hstop, g2, g3, g4, hl1, hl0, hno⟩ := my_groups hmy hfour' hmt
  have hm12 : 1 ≤ m ∧ m ≤ 12 := by
    unfold monthWord at hm
    simp only [Bool.and_eq_true, decide_eq_true_eq] at hm
    exact hm.1
  obtain ⟨gm, -⟩ := monthForms_get _ hw m (by omega) hm
  have hf4 : (four y).length = 4 := by simp [four]
  simp only [List.length_append, List.length_singleton, hf4] at hstop
  obtain ⟨res, r0, r1, r2, r3, r4, r5⟩ := monthYear_reads (rt := rt) (g := integerWords) (tx := toLower X) (ref := ref) (idx := mt.start) (m := m) (show 100 ≤ y by omega) (by omega) (by rw [hl1, hl0]; omega)
    (by rw [g2]; exact gm) g3 g4
  have hdates : res.hasPossibleDates = true := hasPossibleDates_of_year (by rw [r3.1]; omega)
  have hret : ParserReturns rt ref X monthNameParser [res.copy] := ⟨_, execute_one hrt.stale monthName_pattern monthName_min hmt (pureExtract_ok r0) hdates hno⟩
  obtain ⟨i1, i2, i3, i4, i5⟩ := month_others _ hw
  have n1 := my_noDigit hmy
  have n2 := hmy.after
  have hHc : ∀ c ∈ four y, isDigitB c = true ∨ c = 58 := fun c hc => .inl (hD c hc)
  have hblank : ∀ c, (toLower p ++ toLower v ++ [b]).getLast? = some c → Blank c := by
    intro c hc
    rw [List.getLast?_concat] at hc
    cases hc
    exact hbl
  have e9 := iso_clock n1 hHc n2 hT hblank
  have hclk : ∀ k ∈ clockKeys, ¬ Occurs k.atStart k.word k.atEnd (toLower X) := by
    intro k hk
    obtain ⟨w, hw', hk⟩ : ∃ w ∈ clockWords, k ∈ clockKeysOf w := by
      rcases List.mem_append.1 hk with hk | hk
      · exact ⟨_, by simp [clockWords], hk⟩
      · exact ⟨_, by simp [clockWords], hk⟩
    obtain ⟨c1, c2, c3⟩ := h.clock w hw'
    simp only [clockKeysOf, List.mem_cons, List.not_mem_nil, or_false] at hk
    rcases hk with rfl | rfl | rfl
    · exact c1
    · exact not_infix c2
    · exact not_infix c3
  have quiet : ∀ {P : Parser} {r : Re}, P.pattern = some r → r.search (toLower X) = none →
      ∃ rs, ParserReturns rt ref X P rs ∧ ∀ x ∈ rs, x = res.copy ∨ (Overlap x res.copy ∧ x.textLength < res.copy.textLength) := by
    intro P r hr hn
    refine ⟨[], silent_returns ?_, by simp⟩
    unfold silent
    rw [hr]
    simp only [hn, Option.isNone_none]
  have hok := Re.search_ok hmt
  have hXl : (toLower X).length = X.length := by simp [toLower]
  have hmtl := hok.le
  have hmts := hok.stop_le
  have hix : res.copy.index = mt.start := by
    rw [copy_index, r1]
    unfold PResult.toU32
    omega
  have hml : res.copy.textLength = (toLower v).length + 5 := by
    unfold PResult.textLength
    rw [copy_text, r2, List.length_drop, hl1, hl0]
    omega
  have hsl := no_slashes h
  refine ⟨res.copy, r3, r4, r5 _ (by decide), run_near hrt hs hlen (r := res.copy) ⟨monthNameParser, by simp [mainParsers], _, hret, by simp⟩ ?_ ?_⟩
  · intro P hPm
    simp only [mainParsers, List.mem_cons, List.not_mem_nil, or_false] at hPm
    rcases hPm with rfl | rfl | rfl | rfl | rfl | rfl | rfl | rfl | rfl | rfl | rfl | rfl
    · exact quiet casualTime_pattern (no_casualTime h i1)
    · exact quiet deadline_pattern (no_deadline_search (h.deadlines i4))
    · refine ⟨[], silent_returns (by unfold silent; rw [dayOfWeek_pattern]), by simp⟩
    · exact quiet casualDate_pattern (no_casualDate h i2)
    · exact quiet middleEndian_pattern (my_middle hmy)
    · exact quiet timeLater_pattern (hsl Ast.timeLater (by simp))
    · exact ⟨_, hret, fun z hz => .inl (by simpa using hz)⟩
    · exact quiet timeAgo_pattern (hsl Ast.timeAgo (by simp))
    · obtain ⟨rs, hrs⟩ := clock_returns hrt hx X
      refine ⟨rs, hrs, fun z hz => .inr ?_⟩
      have hmn := execute_mentions hrt.stale hrt.stops timeExpr_exact timeExpr_pattern timeExpr_min hlen hrs z hz
      unfold mentions at hmn
      rw [List.drop_zero] at hmn
      cases hsr : Ast.timeExpr.search (toLower X) with
      | none => rw [hsr] at hmn; simp at hmn
      | some mc =>
        rw [hsr] at hmn
        obtain ⟨-, hcle, ⟨s', -, -, -, hrel⟩, -⟩ := Re.search_some hsr
        have hstart := clock_start (toLower_toLower X) hT hw hbl n1 hD n2 hclk hcle hrel
        have hca : ClockAt (toLower p ++ toLower v ++ [b]) (four y) .none [] none (toLower s) :=
          { before := n1, after := n2, lower := toLower_toLower s, nonempty := hD0, digits := hD
            short := by simp [four]
            half := .inl ⟨rfl, rfl, by
              unfold SaysHalf at hhalf ⊢
              rwa [toLower_toLower]⟩
            apart := hnx
            lead := hblank
            bytes := fun c hc => by
              obtain ⟨z, hz', rfl⟩ := List.mem_map.1 (show c ∈ s.map lowerB from hc)
              exact lbyte z (hb z (by simp [hz']))
            clock := by
              have : toLower p ++ toLower v ++ [b] ++ (four y ++ (Tail.none.text ++ ([] ++ toLower s))) = toLower X := by rw [hT]; rfl
              rw [this]; exact hclk
            whole := by
              have : toLower p ++ toLower v ++ [b] ++ (four y ++ (Tail.none.text ++ ([] ++ toLower s))) = toLower X := by rw [hT]; rfl
              rw [this, toLower_toLower] }
        obtain ⟨mt', e', hsr', e1, e2, l1, l2, hstop', -, -, -, -, -, hn'⟩ := clock_in_text hca (T := toLower X) (by rw [hT]; rfl)
        rw [hsr] at hsr'
        cases hsr'
        simp only [Nat.zero_add] at hmn
        have hnil : mentions Ast.timeExpr true (toLower X) X.length mc.stop = [] := by
          cases hn : X.length with
          | zero => rfl
          | succ n => unfold mentions; rw [hn']
        rw [hnil, List.mem_singleton] at hmn
        simp only [if_true, Prod.mk.injEq, Match.length] at hmn
        simp only [List.length_append, List.length_nil, List.length_singleton, Tail.text, hf4] at hstop' l2
        have hvl : ∀ w ∈ monthForms, 3 ≤ w.length := by decide
        have hvl := hvl _ hw
        unfold Overlap stop
        rw [hix, hml]
        omega
    · exact quiet iso_pattern e9
    · exact quiet holiday_pattern (no_holiday h i3)
    · exact quiet week_pattern (no_week_search (h.weeks i5))
  · exact r5 _ (by decide)

theorem monthWord_range {w : Text} {m : Nat} (hm : monthWord w m = true) : 1 ≤ m ∧ m ≤ 12 := by
  unfold monthWord at hm
  simp only [Bool.and_eq_true, decide_eq_true_eq] at hm
  exact hm.1

/-- **C89.** If a text names one month, followed by one blank and a year in four digits, from 1400 on, and no other date or time, then the program prints the first day of that month of that year,
at midnight, whatever the reference time and the other words are, and in upper or lower case. -/
theorem c89_month_and_year_in_any_text (rt : Rt) (hrt : Rt.Defined rt) (sort : List PResult → List PResult) (hs : Sorts sort) (ref : PTime) (x : DateTime) (hx : RefReads ref x)
    (p v : Text) (b m y : Nat) (s : Text) (hw : toLower v ∈ monthForms) (hm : monthWord (toLower v) m = true) (hps : ∀ c, p.getLast? = some c → ¬ WordChar c) (hbl : Blank b)
    (h1400 : 1400 ≤ y) (h9999 : y ≤ 9999) (hnext : ∀ c, s.head? = some c → ¬ WordChar c) (hbe : ∀ g r, Blanks g → toLower s = g ++ txt!"be" ++ r → ∃ c, r.head? = some c ∧ WordChar c)
    (hhalf : ¬ SaysHalf s) (hone : ¬ ∃ c, Blank c ∧ p = [c]) (hfour : ¬ ∃ g, Blanks g ∧ g.length = 4 ∧ g <:+ p) (hp : NoDigits p) (hd : NoDigits s) (hb : ∀ c ∈ p ++ s, c < 256)
    (h : FewDateWords [toLower v] (p ++ v ++ [b] ++ (four y ++ s))) (hnp : ¬ WholeWord (toLower v) (toLower p)) (hns : ¬ WholeWord (toLower v) (toLower s))
    (hlen : (p ++ v ++ [b] ++ (four y ++ s)).length < 4294967296) :
    mainRun rt sort (p ++ v ++ [b] ++ (four y ++ s)) ref = .ok (foundLine ++ (DateTime.mk y m 1 0 0 0).format) := by
  obtain ⟨m1, m2⟩ := monthWord_range hm
  obtain ⟨r, r1, r2, r3, hr⟩ := my_run rt hrt sort hs ref x hx p v b m y s hw hm hps hbl (by omega) h9999 hnext hbe hhalf hone hfour hp hd hb h hnp hns hlen
  have hb' := monthLength_bounds y m m1 m2
  have hcv : CivilInRange y m 1 := ⟨by omega, by omega, m1, m2, by omega, by omega⟩
  rw [hr, c08_toDate_prints_start r ⟨y, m, 1, 0, 0, 0⟩ ⟨hcv, by simp, by simp, by simp⟩ r1 r2 r3]
  rfl

/-- **C89, early years.** Under the same conditions, a year from 0100 to 1399 ends the program with an exception. -/
theorem c89_early_years_kill (rt : Rt) (hrt : Rt.Defined rt) (sort : List PResult → List PResult) (hs : Sorts sort) (ref : PTime) (x : DateTime) (hx : RefReads ref x)
    (p v : Text) (b m y : Nat) (s : Text) (hw : toLower v ∈ monthForms) (hm : monthWord (toLower v) m = true) (hps : ∀ c, p.getLast? = some c → ¬ WordChar c) (hbl : Blank b)
    (h100 : 100 ≤ y) (h1399 : y ≤ 1399) (hnext : ∀ c, s.head? = some c → ¬ WordChar c) (hbe : ∀ g r, Blanks g → toLower s = g ++ txt!"be" ++ r → ∃ c, r.head? = some c ∧ WordChar c)
    (hhalf : ¬ SaysHalf s) (hone : ¬ ∃ c, Blank c ∧ p = [c]) (hfour : ¬ ∃ g, Blanks g ∧ g.length = 4 ∧ g <:+ p) (hp : NoDigits p) (hd : NoDigits s) (hb : ∀ c ∈ p ++ s, c < 256)
    (h : FewDateWords [toLower v] (p ++ v ++ [b] ++ (four y ++ s))) (hnp : ¬ WholeWord (toLower v) (toLower p)) (hns : ¬ WholeWord (toLower v) (toLower s))
    (hlen : (p ++ v ++ [b] ++ (four y ++ s)).length < 4294967296) :
    ∃ e, mainRun rt sort (p ++ v ++ [b] ++ (four y ++ s)) ref = .exn e ∧ e.isOutOfRange = true := by
  obtain ⟨m1, m2⟩ := monthWord_range hm
  obtain ⟨r, r1, r2, r3, hr⟩ := my_run rt hrt sort hs ref x hx p v b m y s hw hm hps hbl h100 (by omega) hnext hbe hhalf hone hfour hp hd hb h hnp hns hlen
  obtain ⟨-, hk⟩ := c09_toDate_throws_iff_not_a_date r y m 1 0 0 0 (by omega) (by omega) (by omega) (by omega) (by omega) (by omega) r1 r2 r3
  obtain ⟨e, he, ho⟩ := hk (fun hc => by have := hc.1; omega)
  rw [hr, he]
  exact ⟨e, rfl, ho⟩

/-! ## The conditions are met, and needed -/

/-- What is checked of a text with a month and a year. -/
def monthYearChecks (p v : Text) (y : Nat) (s : Text) : Bool :=
  !p.getLast?.any isWordB && !s.head?.any isWordB && !(txt!"be").isPrefixOf ((toLower s).dropWhile isSpaceB) && !halfB s && !(p.all isSpaceB && p.length == 1) &&
    decide (p.length < 4 ∨ (p.drop (p.length - 4)).all isSpaceB = false) && (p ++ s).all (fun c => !isDigitB c && decide (c < 256)) &&
    ((dateWordChecks (p ++ v ++ [32] ++ (four y ++ s)) [toLower v]).drop 1).all id && !occursB true (toLower v) true (toLower p) && !occursB true (toLower v) true (toLower s)

theorem monthYearChecks_sound {p v : Text} {y : Nat} {s : Text} (h : monthYearChecks p v y s = true) :
    (∀ c, p.getLast? = some c → ¬ WordChar c) ∧ (∀ c, s.head? = some c → ¬ WordChar c) ∧ (∀ g r, Blanks g → toLower s = g ++ txt!"be" ++ r → ∃ c, r.head? = some c ∧ WordChar c) ∧ ¬ SaysHalf s ∧
      (¬ ∃ c, Blank c ∧ p = [c]) ∧ (¬ ∃ g, Blanks g ∧ g.length = 4 ∧ g <:+ p) ∧ NoDigits p ∧ NoDigits s ∧ (∀ c ∈ p ++ s, c < 256) ∧ FewDateWords [toLower v] (p ++ v ++ [32] ++ (four y ++ s)) ∧
      ¬ WholeWord (toLower v) (toLower p) ∧ ¬ WholeWord (toLower v) (toLower s) := by
  unfold monthYearChecks at h
  simp only [Bool.and_eq_true, Bool.not_eq_true', List.all_eq_true (p := fun c => !isDigitB c && decide (c < 256)), decide_eq_true_eq] at h
  obtain ⟨⟨⟨⟨⟨⟨⟨⟨⟨a1, a2⟩, a3⟩, a4⟩, a5⟩, a6⟩, a7⟩, a8⟩, a9⟩, a10⟩ := h
  refine ⟨fun c hc => ?_, fun c hc => ?_, fun g r hg e => ?_, halfB_sound a4, ?_, ?_, fun c hc => not_digit_iff.2 (a7 c (by simp [hc])).1, fun c hc => not_digit_iff.2 (a7 c (by simp [hc])).1,
    fun c hc => (a7 c hc).2, fewDateWords_of a8, occursB_sound a9, occursB_sound a10⟩
  · rw [hc] at a1; rw [wordChar_iff]; simpa using a1
  · rw [hc] at a2; rw [wordChar_iff]; simpa using a2
  · exfalso
    have hdw : (toLower s).dropWhile isSpaceB = txt!"be" ++ r := by
      rw [e, List.append_assoc, List.dropWhile_append_of_pos (fun c hc => blank_isSpace (hg c hc))]
      rfl
    rw [hdw, List.isPrefixOf_iff_prefix.2 (List.prefix_append _ _)] at a3
    cases a3
  · rintro ⟨c, hc, rfl⟩
    simp [blank_isSpace hc] at a5
  · rintro ⟨g, hg, hl, t, rfl⟩
    rcases a6 with h | h
    · simp at h; omega
    · rw [List.length_append, hl, Nat.add_sub_cancel, List.drop_left] at h
      have := List.all_eq_true.2 (fun c hc => blank_isSpace (hg c hc))
      rw [this] at h
      cases h

/-- The conditions are met by ordinary sentences. -/
theorem c89_conditions_are_met : ∀ x ∈ [(txt!"We met in ", txt!"March", 3, 2018, txt!"."), (txt!"", txt!"DEC", 12, 1975, txt!" was cold, as ever"), (txt!"(   ", txt!"sept", 9, 1400, txt!")"),
      (txt!"Back home since ", txt!"May", 5, 9999, txt!""), (txt!"King John died in ", txt!"October", 10, 1216, txt!", you know")],
    match x with
    | (p, v, m, y, s) =>
      toLower v ∈ monthForms ∧ monthWord (toLower v) m = true ∧ 100 ≤ y ∧ y ≤ 9999 ∧ (∀ c, p.getLast? = some c → ¬ WordChar c) ∧ (∀ c, s.head? = some c → ¬ WordChar c) ∧
        (∀ g r, Blanks g → toLower s = g ++ txt!"be" ++ r → ∃ c, r.head? = some c ∧ WordChar c) ∧ ¬ SaysHalf s ∧ (¬ ∃ c, Blank c ∧ p = [c]) ∧ (¬ ∃ g, Blanks g ∧ g.length = 4 ∧ g <:+ p) ∧
        NoDigits p ∧ NoDigits s ∧ (∀ c ∈ p ++ s, c < 256) ∧ FewDateWords [toLower v] (p ++ v ++ [32] ++ (four y ++ s)) ∧ ¬ WholeWord (toLower v) (toLower p) ∧ ¬ WholeWord (toLower v) (toLower s) := by
  have hck : ∀ x ∈ [(txt!"We met in ", txt!"March", 3, 2018, txt!"."), (txt!"", txt!"DEC", 12, 1975, txt!" was cold, as ever"), (txt!"(   ", txt!"sept", 9, 1400, txt!")"),
      (txt!"Back home since ", txt!"May", 5, 9999, txt!""), (txt!"King John died in ", txt!"October", 10, 1216, txt!", you know")],
    match x with
    | (p, v, m, y, s) => toLower v ∈ monthForms ∧ monthWord (toLower v) m = true ∧ 100 ≤ y ∧ y ≤ 9999 ∧ monthYearChecks p v y s = true := by decide +kernel
  rintro ⟨p, v, m, y, s⟩ hx
  obtain ⟨h1, h2, h3, h4, h5⟩ := hck _ hx
  exact ⟨h1, h2, h3, h4, monthYearChecks_sound h5⟩

/-- **C89: the conditions are needed.** After four blanks, after one blank at the start of the text, before `BE`, beside another number, and inside a word, something
else is printed than the first of March 2018. -/
theorem c89_conditions_are_needed : ∀ x ∈ [(txt!"in    ", txt!" 2018"), (txt!" ", txt!" 2018"), (txt!"", txt!" 2018 be"), (txt!"", txt!" 2018be"), (txt!"", txt!" 2018, and 2019"), (txt!"x", txt!" 2018"),
      (txt!"", txt!" 2018x")],
    mainRun (Rt.usual 0) sortKeep (x.1 ++ txt!"march" ++ x.2) exampleRef ≠ .ok (foundLine ++ (DateTime.mk 2018 3 1 0 0 0).format) := by
  decide +kernel

end Chrono.Props
