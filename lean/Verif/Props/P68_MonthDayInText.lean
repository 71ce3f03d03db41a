import Verif.Props.P67_MonthInText
import Verif.Props.P31_MonthDayPhrases
/-!
# C88: a month and a day anywhere in a text
-/
namespace Chrono.Props
open Chrono Chrono.Spec Chrono.Boost

/-! ## The middle-endian pattern in a text with one number -/

/-- One digit; one or two digits. -/
def dg1 : Re := .one (.set true false [.range 48 57])
def dg12 : Re := .seq dg1 (.alt dg1 .eps)

theorem middleEndian_whole : ∃ wk m gp dd mk ap rng tw rng' yr ws, Ast.middleEndian = .seq (.cap 1 (.wb false)) (.seq (.alt wk .eps) (.seq (.cap 3 m) (.seq gp (.seq (.cap 4 dd)
      (.seq (.look true (.seq sps ap)) (.seq (.seq sp1 sps) (.seq (.alt rng .eps) (.seq (.alt yr .eps) (.seq (.cap 12 (.wb false)) (.look true (.seq (.one (.ch true 58)) (.one (.set true false [.cls .digit false]))))))))))))) ∧
    wk.groups = [2] ∧ m.words = some ws ∧ (ws.all fun w => (List.range 13).any fun n => monthWord w n) = true ∧ (monthForms.all fun k => (m.fullMatch k).isSome) = true ∧ m.free = true ∧ m.groups = [] ∧
    gp.allB gapB = true ∧ gp.groups = [] ∧ (∀ c ∈ [9, 10, 11, 12, 13, 32], (gp.fullMatch [c]).isSome = true) ∧ gp.free = true ∧ ordinalsOr dd = true ∧ leftAlt dd = .seq (.cap 5 dg12) mk ∧
    mk.words = some [txt!"st", txt!"nd", txt!"rd", txt!"th", []] ∧ mk.groups = [] ∧ mk.free = true ∧ (dayMarks.all fun k => (mk.fullMatch k).isSome) = true ∧
    ap.words = some [txt!"am", txt!"pm"] ∧ rng = .seq tw rng' ∧ tw.words = some [txt!"to", txt!"-"] ∧ yr.uses isDigitB = true :=
  ⟨_, _, _, _, _, _, _, _, _, _, _, rfl, by decide +kernel, rfl, by decide +kernel, by decide +kernel, by decide +kernel, by decide +kernel, by decide +kernel, by decide +kernel, by decide +kernel,
    by decide +kernel, by decide +kernel, rfl, by decide +kernel, by decide +kernel, by decide +kernel, by decide +kernel, by decide +kernel, rfl, by decide +kernel, by decide +kernel⟩

theorem month_words_list {w : Text} {m : Nat} (hw : monthWord w m = true) : w ∈ monthWordsList := by
  have hm : m ≤ 12 := by
    unfold monthWord at hw
    simp only [Bool.and_eq_true, decide_eq_true_eq] at hw
    exact hw.1.2
  unfold monthWordsList
  refine List.mem_flatMap.2 ⟨m, List.mem_range.2 (by omega), ?_⟩
  unfold monthWord at hw
  simp only [Bool.and_eq_true, Bool.or_eq_true, beq_iff_eq] at hw
  simp only [List.mem_cons, List.not_mem_nil, or_false]
  rcases hw.2 with ((h | h) | h) | ⟨-, h | h⟩
  · exact .inl h
  · exact .inr (.inl h)
  · exact .inr (.inr (.inl h))
  · exact .inr (.inr (.inr (.inl h)))
  · exact .inr (.inr (.inr (.inr h)))

/-- No month ends with another. -/
theorem month_suffix : ∀ u ∈ monthWordsList, ∀ w ∈ monthForms, u <:+ w ∨ w <:+ u → u = w := by decide +kernel

theorem month_lasts : ∀ u ∈ monthWordsList, u.getLast?.any (fun c => !gapB c && !isDigitB c && c != 58) = true := by decide +kernel

/-- The month before a number. -/
theorem month_before {Y u v P w : Text} {b : Nat} (hu : u ∈ monthWordsList) (hv : Gap v) (hw : w ∈ monthForms) (hb : Blank b) (e : Y ++ u ++ v = P ++ w ++ [b]) : Y = P ∧ u = w ∧ v = [b] := by
  have hl : ∀ {u : Text}, u ∈ monthWordsList → ∀ c, u.getLast? = some c → gapB c = false := by
    intro u hu c hc
    have := month_lasts u hu
    rw [hc] at this
    simp at this
    exact this.1.1
  have gb : ∀ {c : Nat}, (Blank c ∨ c = 44 ∨ c = 45 ∨ c = 47) → gapB c = true := by
    intro c hc
    unfold Blank at hc
    have : c ∈ [9, 10, 11, 12, 13, 32, 44, 45, 47] := by simp; omega
    have key : ∀ c ∈ [9, 10, 11, 12, 13, 32, 44, 45, 47], gapB c = true := by decide
    exact key c this
  have hwl : w ∈ monthWordsList := by
    have : ∀ w ∈ monthForms, w ∈ monthWordsList := by decide +kernel
    exact this w hw
  have hne : u ≠ [] := by rintro rfl; have := month_lasts _ hu; cases this
  have hne' : w ≠ [] := by rintro rfl; revert hw; decide
  rcases List.eq_nil_or_concat v with rfl | ⟨v', b', rfl⟩
  · exfalso
    have := congrArg List.getLast? e
    rw [List.append_nil, List.getLast?_append, List.getLast?_eq_some_getLast hne, List.getLast?_concat] at this
    simp only [Option.some_or, Option.some.injEq] at this
    have h1 := hl hu b (by rw [List.getLast?_eq_some_getLast hne, this])
    rw [gb (.inl hb)] at h1
    cases h1
  · rw [List.concat_eq_append, ← List.append_assoc] at e
    obtain ⟨e1, e2⟩ := List.append_inj' e rfl
    cases e2
    rcases List.eq_nil_or_concat v' with rfl | ⟨v'', c, rfl⟩
    · rw [List.append_nil] at e1
      have hs : u <:+ w ∨ w <:+ u := by
        have h1 : u <:+ P ++ w := ⟨Y, e1⟩
        have h2 : w <:+ P ++ w := List.suffix_append _ _
        exact List.suffix_or_suffix_of_suffix h1 h2
      obtain rfl := month_suffix u hu w hw hs
      exact ⟨List.append_cancel_right e1, rfl, rfl⟩
    · exfalso
      have := congrArg List.getLast? e1
      rw [List.concat_eq_append, ← List.append_assoc, List.getLast?_concat, List.getLast?_append, List.getLast?_eq_some_getLast hne'] at this
      simp only [Option.some_or, Option.some.injEq] at this
      have h1 := hl hwl c (by rw [List.getLast?_eq_some_getLast hne', this])
      rw [gb (hv c (by simp))] at h1
      cases h1

/-- A text with a month, a day and something after it. -/
structure MonthDayAt (X P w : Text) (b : Nat) (D mk g S : Text) : Prop where
  text : X = P ++ w ++ [b] ++ (D ++ (mk ++ (g ++ S)))
  low : toLower X = X
  month : w ∈ monthForms
  blank : Blank b
  before : ∀ c ∈ P, isDigitB c = false
  start : ∀ c, P.getLast? = some c → ¬ WordChar c
  digits : ∀ c ∈ D, isDigitB c = true
  len : D.length = 1 ∨ D.length = 2
  mark : mk ∈ dayMarks
  gap : Blanks g
  gapped : g ≠ []
  next : ∃ c, S.head? = some c ∧ WordChar c
  after : ∀ c ∈ S, isDigitB c = false
  noRange : ¬ txt!"to" <+: S
  noHalf : ¬ txt!"am" <+: S ∧ ¬ txt!"pm" <+: S
  ordinals : ∀ w m gap o d, monthWord w m = true → Gap gap → 1 ≤ d → d ≤ 31 → words o = ordinalName d → ¬ w ++ gap ++ o <:+: X

theorem mark_letters {mk : Text} (h : mk ∈ dayMarks) : ∀ c ∈ mk, isDigitB c = false ∧ isSpaceB c = false := by
  revert mk; decide

theorem blank_noDigit {c : Nat} (h : Blank c) : isDigitB c = false := by
  unfold Blank at h; unfold isDigitB; simp; omega

theorem digits_split {a b x y : Text} (ha : ∀ c ∈ a, isDigitB c = true) (hb : ∀ c ∈ b, isDigitB c = true) (hx : ∀ c, x.head? = some c → isDigitB c = false)
    (hy : ∀ c, y.head? = some c → isDigitB c = false) (e : a ++ x = b ++ y) : a = b ∧ x = y := by
  rcases List.append_eq_append_iff.1 e with ⟨t, h1, h2⟩ | ⟨t, h1, h2⟩
  · cases t with
    | nil => exact ⟨by simpa using h1.symm, by simpa using h2⟩
    | cons c t =>
      have := hx c (by rw [h2]; rfl)
      rw [hb c (by rw [h1]; simp)] at this
      cases this
  · cases t with
    | nil => exact ⟨by simpa using h1, by simpa using h2.symm⟩
    | cons c t =>
      have := hy c (by rw [h2]; rfl)
      rw [ha c (by rw [h1]; simp)] at this
      cases this

theorem me_match {X P w : Text} {b : Nat} {D mk g S : Text} (h : MonthDayAt X P w b D mk g S) {q : Nat} (hq : q ≤ X.length) {s' : St} (hrel : Rel Ast.middleEndian (startSt X q) s') :
    q ≤ P.length ∧ s'.pos = (P ++ w ++ [b] ++ D ++ mk ++ g).length ∧ ∃ k l e C, s'.caps = [(12, e), (4, k, l), (5, k, k + D.length), (3, P.length, P.length + w.length)] ++ C ++ [(1, q, q)] ∧
      k = P.length + w.length + 1 ∧ ∀ x ∈ C, x.1 = 2 := by
  obtain ⟨wk, m, gp, dd, mkr, ap, rng, tw, rng', yr, ws, he, hwg, hmw, hws, -, -, hmg, hga, hgg, -, -, hord, hdl, hkw, hkg, -, -, hap, rfl, htw, hyr⟩ := middleEndian_whole
  rw [he] at hrel
  simp only [rel_seq] at hrel
  obtain ⟨s1, h1, s2, h2, s3, h3, s4, h4, s5, h5, s6, h6, s7, h7, s8, h8, s9, h9, s10, h10, h11⟩ := hrel
  have h7 := rel_seq.2 h7
  obtain ⟨z1, h1', rfl⟩ := rel_cap.1 h1
  obtain ⟨-, rfl⟩ := rel_wb.1 h1'
  obtain ⟨z3, h3', rfl⟩ := rel_cap.1 h3
  obtain ⟨z5, h5', rfl⟩ := rel_cap.1 h5
  obtain ⟨-, rfl⟩ := rel_look.1 h6
  obtain ⟨u2, c2⟩ := h2.consumed
  obtain ⟨u3, c3⟩ := h3'.consumed
  obtain ⟨u4, c4⟩ := h4.consumed
  obtain ⟨u5, c5⟩ := h5'.consumed
  obtain ⟨u7, c7⟩ := h7.consumed
  have r2 : X.drop q = u2 ++ s2.rest := c2.rest
  have r3 : s2.rest = u3 ++ z3.rest := c3.rest
  have r4 : z3.rest = u4 ++ s4.rest := c4.rest
  have r5 : s4.rest = u5 ++ z5.rest := c5.rest
  have r7 : z5.rest = u7 ++ s7.rest := c7.rest
  have htext : X = X.take q ++ u2 ++ u3 ++ u4 ++ (u5 ++ z5.rest) := by
    calc X = X.take q ++ X.drop q := (List.take_append_drop _ _).symm
      _ = _ := by rw [r2, r3, r4, r5]; simp only [List.append_assoc]
  have i3 : u3 <:+: X := ⟨X.take q ++ u2, u4 ++ (u5 ++ z5.rest), by rw [← List.append_assoc]; exact htext.symm⟩
  have i5 : u5 <:+: X := ⟨X.take q ++ u2 ++ u3 ++ u4, z5.rest, by rw [List.append_assoc _ u5]; exact htext.symm⟩
  have hmem := (show Lang m u3 from ⟨_, _, h3', c3⟩).words _ hmw
  rw [lower_infix h.low i3] at hmem
  obtain ⟨n, -, hn⟩ := List.any_eq_true.1 (List.all_eq_true.1 hws _ hmem)
  have hul := month_words_list hn
  have hgap : Gap u4 := gap_of ⟨_, _, h4, c4⟩ hga
  have hS0 : ∀ c ∈ mk ++ (g ++ S), isDigitB c = false := by
    intro c hc
    simp only [List.mem_append] at hc
    rcases hc with hc | hc | hc
    · exact (mark_letters h.mark c hc).1
    · exact blank_noDigit (h.gap c hc)
    · exact h.after c hc
  have hP0 : ∀ c ∈ P ++ w ++ [b], isDigitB c = false := by
    intro c hc
    simp only [List.mem_append, List.mem_singleton] at hc
    rcases hc with (hc | hc) | rfl
    · exact h.before c hc
    · have : ∀ w ∈ monthForms, ∀ c ∈ w, isDigitB c = false := by decide
      exact this w h.month c hc
    · exact blank_noDigit h.blank
  rcases ordinals_rel hord h5' with hl | hw
  swap
  · obtain ⟨k, k1, k2, ho⟩ := hw u5 c5 (lower_infix h.low i5)
    refine absurd ⟨X.take q ++ u2, z5.rest, ?_⟩ (h.ordinals u3 n u4 u5 k hn hgap k1 k2 ho)
    rw [← List.append_assoc, ← List.append_assoc, List.append_assoc _ u5]
    exact htext.symm
  rw [hdl] at hl
  obtain ⟨y5, hl1, hl2⟩ := rel_seq.1 hl
  obtain ⟨y6, hl1', rfl⟩ := rel_cap.1 hl1
  obtain ⟨v1, d1⟩ := hl1'.consumed
  obtain ⟨v2, d2⟩ := hl2.consumed
  have q1 : s4.rest = v1 ++ y6.rest := d1.rest
  have q2 : y6.rest = v2 ++ z5.rest := d2.rest
  obtain ⟨v1n, v1d⟩ := isDigits_of (show Lang dg12 v1 from ⟨_, _, hl1', d1⟩) (by decide +kernel) (by decide)
  have hkm := (show Lang mkr v2 from ⟨_, _, hl2, d2⟩).words _ hkw
  have hb7 : ∀ c, z5.rest.head? = some c → isSpaceB c = true := by
    intro c hc
    exact rel_first (f := isSpaceB) (by decide +kernel) (by decide) h7 hc
  have hn7 : z5.rest ≠ [] := by
    have := (show Lang _ u7 from ⟨_, _, h7, c7⟩).minLen
    have : 1 ≤ u7.length := this
    rw [r7]
    rintro h0
    rw [(List.append_eq_nil_iff.1 h0).1] at this
    simp at this
  -- the month
  have hsplit : X.take q ++ u2 ++ u3 ++ u4 = P ++ w ++ [b] := by
    obtain ⟨c, v1', rfl⟩ : ∃ c v1', v1 = c :: v1' := by cases v1 with | nil => exact absurd rfl v1n | cons c v => exact ⟨c, v, rfl⟩
    have hdc : isDigitB c = true := digit_iff.1 (v1d c (by simp))
    have hne : u3 ++ u4 ≠ [] := by
      intro h0
      rw [(List.append_eq_nil_iff.1 h0).1] at hul
      have := month_lasts _ hul
      cases this
    obtain ⟨A, x, hA⟩ : ∃ A x, u3 ++ u4 = A ++ [x] := by
      rcases List.eq_nil_or_concat (u3 ++ u4) with h0 | ⟨A, x, h0⟩
      · exact absurd h0 hne
      · exact ⟨A, x, by simpa using h0⟩
    rcases before_digit hP0 (H := D) (fun c hc => .inl (h.digits c hc)) hS0 (A := X.take q ++ u2 ++ A) (x := x) (c := c) (B := v1' ++ y6.rest) (by
      rw [← h.text]
      refine htext.trans ?_
      rw [← r5, q1, List.append_assoc _ u3 u4, hA]
      simp) hdc with hx | hx
    · rw [← hx, List.append_assoc _ u3 u4, hA]
      simp
    · exfalso
      have : x ∈ u4 ∨ u3.getLast? = some x := by
        have hl := congrArg List.getLast? hA
        rw [List.getLast?_concat, List.getLast?_append] at hl
        cases h4 : u4.getLast? with
        | none => rw [h4] at hl; exact .inr (by simpa using hl)
        | some y =>
          rw [h4] at hl
          simp at hl
          exact .inl (hl ▸ List.mem_of_getLast? h4)
      rcases this with h0 | h0
      · have := hgap x h0
        unfold Blank at this
        unfold isDigitB at hx
        simp at hx
        omega
      · have := month_lasts _ hul
        rw [h0] at this
        simp at this
        rcases hx with hx | hx
        · rw [this.1.2] at hx; cases hx
        · exact this.2 hx
  obtain ⟨hY, rfl, rfl⟩ := month_before hul hgap h.month h.blank hsplit
  have hDR : v1 ++ (v2 ++ z5.rest) = D ++ (mk ++ (g ++ S)) := by
    have := htext
    rw [hsplit, ← r5, q1, q2] at this
    exact List.append_cancel_left (this.symm.trans h.text)
  have hv2 : ∀ c, (v2 ++ z5.rest).head? = some c → isDigitB c = false := by
    intro c hc
    cases v2 with
    | nil => exact blank_noDigit (isSpace_blank (hb7 c hc))
    | cons a v2 =>
      cases hc
      have key : ∀ v ∈ [txt!"st", txt!"nd", txt!"rd", txt!"th", []], ∀ a, v.head? = some a → 97 ≤ a := by decide
      have := key _ hkm (lowerB c) rfl
      unfold lowerB at this
      unfold isDigitB
      simp only [Bool.and_eq_false_iff, decide_eq_false_iff_not]
      split at this <;> omega
  obtain ⟨rfl, hDR'⟩ := digits_split (fun c hc => digit_iff.1 (v1d c hc)) h.digits hv2 (fun c hc => hS0 c (List.mem_of_mem_head? hc)) hDR
  obtain ⟨rfl, hz5⟩ : v2 = mk ∧ z5.rest = g ++ S := by
    have hlow : toLower v2 = v2 := by
      refine lower_infix h.low ⟨P ++ u3 ++ [b] ++ v1, z5.rest, ?_⟩
      rw [h.text, ← hDR']
      simp
    rw [hlow] at hkm
    have hg : ∀ c, (g ++ S).head? = some c → isSpaceB c = true := by
      intro c hc
      cases g with
      | nil => exact absurd rfl h.gapped
      | cons a g => cases hc; exact blank_isSpace (h.gap _ (by simp))
    have hlet : ∀ v ∈ [txt!"st", txt!"nd", txt!"rd", txt!"th", []], v.length = 0 ∨ v.length = 2 := by decide
    have hlet' : ∀ v ∈ dayMarks, v.length = 0 ∨ v.length = 2 := by decide
    have hsp : ∀ v ∈ [txt!"st", txt!"nd", txt!"rd", txt!"th", []], ∀ c ∈ v, isSpaceB c = false := by decide
    have l1 := hlet _ hkm
    have l2 := hlet' _ h.mark
    by_cases hlen : v2.length = mk.length
    · exact List.append_inj hDR' hlen
    · exfalso
      rcases l1 with l1 | l1
      · rw [List.length_eq_zero_iff] at l1
        subst l1
        cases mk with
        | nil => exact hlen rfl
        | cons a mk =>
          have := hb7 a (by rw [show z5.rest = _ from hDR']; rfl)
          rw [(mark_letters h.mark a (by simp)).2] at this
          cases this
      · have l2 : mk.length = 0 := by omega
        rw [List.length_eq_zero_iff] at l2
        subst l2
        cases v2 with
        | nil => cases l1
        | cons a v2 =>
          have := hg a (by rw [show g ++ S = _ from hDR'.symm]; rfl)
          rw [hsp _ hkm a (by simp)] at this
          cases this
  -- the blanks
  have hu7 : Blanks u7 := by
    intro c hc
    exact isSpace_blank ((show Lang (.seq sp1 sps) u7 from ⟨_, _, h7, c7⟩).allB isSpaceB (by decide +kernel) c hc)
  rw [hz5] at r7
  obtain ⟨cS, hcS, hwS⟩ := h.next
  obtain ⟨g', rfl⟩ : ∃ g', g = u7 ++ g' := by
    rcases List.append_eq_append_iff.1 r7 with ⟨a, ha, hb⟩ | ⟨a, ha, hb⟩
    · cases a with
      | nil => exact ⟨[], by rw [ha]; simp⟩
      | cons x a =>
        exfalso
        rw [hb] at hcS
        cases hcS
        exact blank_notWord (hu7 _ (by rw [ha]; simp)) hwS
    · exact ⟨a, ha⟩
  rw [List.append_assoc] at r7
  have r7 := List.append_cancel_left r7
  have hd7 : ∀ c ∈ s7.rest, isDigitB c = false := by
    intro c hc
    rw [← r7] at hc
    rcases List.mem_append.1 hc with hc | hc
    · exact blank_noDigit (h.gap c (by simp [hc]))
    · exact h.after c hc
  have e8 : s8 = s7 := by
    rcases rel_alt.1 h8 with h8 | h8
    · exfalso
      obtain ⟨t1, k1, -⟩ := rel_seq.1 h8
      obtain ⟨u, cu⟩ := k1.consumed
      have hm := (show Lang tw u from ⟨_, _, k1, cu⟩).words _ htw
      have hur : s7.rest = u ++ t1.rest := cu.rest
      have hlow : toLower u = u := by
        refine lower_infix h.low ⟨P ++ u3 ++ [b] ++ v1 ++ v2 ++ u7, t1.rest, ?_⟩
        rw [List.append_assoc _ u, ← hur, ← r7, h.text]
        simp
      rw [hlow] at hm
      have hu0 : ∃ c, s7.rest.head? = some c ∧ isSpaceB c = false := by
        have : ∀ v ∈ [txt!"to", txt!"-"], ∃ c ∈ v.head?, isSpaceB c = false := by decide
        obtain ⟨c, hc, hs⟩ := this u hm
        refine ⟨c, ?_, hs⟩
        rw [hur]
        cases u with
        | nil => cases hc
        | cons a u => exact hc
      obtain ⟨c, hc, hs⟩ := hu0
      cases g' with
      | cons a g' =>
        rw [← r7] at hc
        cases hc
        rw [blank_isSpace (h.gap _ (by simp))] at hs
        cases hs
      | nil =>
        rw [List.nil_append] at r7
        simp only [List.mem_cons, List.not_mem_nil, or_false] at hm
        rcases hm with rfl | rfl
        · exact h.noRange ⟨_, (r7.trans hur).symm⟩
        · rw [r7, hur] at hcS
          cases hcS
          revert hwS
          unfold WordChar
          omega
    · exact rel_eps.1 h8
  subst e8
  have e9 : s9 = s8 := by
    rcases rel_alt.1 h9 with h9 | h9
    · exfalso
      obtain ⟨c, hc, hd⟩ := h9.uses hyr
      rw [hd7 c hc] at hd
      cases hd
    · exact rel_eps.1 h9
  subst e9
  obtain ⟨z10, h10', rfl⟩ := rel_cap.1 h10
  obtain ⟨hwb, rfl⟩ := rel_wb.1 h10'
  obtain ⟨-, rfl⟩ := rel_look.1 h11
  have hu7n : u7 ≠ [] := by
    have := (show Lang (.seq sp1 sps) u7 from ⟨_, _, h7, c7⟩).minLen
    have : 1 ≤ u7.length := this
    rintro rfl
    simp at this
  obtain rfl : g' = [] := by
    cases g' with
    | nil => rfl
    | cons a g' =>
      exfalso
      have hp := c7.prev
      rw [List.getLast?_eq_some_getLast hu7n] at hp
      have hw1 : isWordB (u7.getLast hu7n) = false := by
        rw [← Bool.not_eq_true, ← wordChar_iff]; exact blank_notWord (hu7 _ (List.getLast_mem _))
      have hw2 : isWordB a = false := by
        rw [← Bool.not_eq_true, ← wordChar_iff]; exact blank_notWord (h.gap a (by simp))
      unfold St.atWordBoundary at hwb
      rw [hp, ← r7] at hwb
      simp [hw1, hw2] at hwb
  have p2 : s2.pos = q + u2.length := c2.pos
  have p3 : z3.pos = s2.pos + u3.length := c3.pos
  have p4 : s4.pos = z3.pos + 1 := c4.pos
  have p5 : y6.pos = s4.pos + v1.length := d1.pos
  have p6 : z5.pos = y6.pos + v2.length := d2.pos
  have p7 : z10.pos = z5.pos + u7.length := c7.pos
  have hPl : P.length = q + u2.length := by rw [← hY, List.length_append, List.length_take, Nat.min_eq_left hq]
  have g3 := h3'.caps_eq hmg
  have g4 := h4.caps_eq hgg
  have g5 : y6.caps = s4.caps := hl1'.caps_eq (by decide)
  have g6 := hl2.caps_eq hkg
  have g7 := h7.caps_eq (by decide)
  obtain ⟨C, hC, hC2⟩ := h2.caps_in
  refine ⟨by omega, ?_, s4.pos, z5.pos, (z10.pos, z10.pos), C, ?_, by omega, ?_⟩
  · simp only [List.length_append, List.length_nil, List.length_singleton]
    omega
  · simp only [g7, g6, g5, g4, g3, hC]
    rw [p5, p3, p2, ← hPl]
    rfl
  · intro x hx
    have := hC2 x hx
    simpa [Re.groups, hwg] using this

theorem leftAlt_rel {r : Re} {s s' : St} (h : Rel (leftAlt r) s s') : Rel r s s' := by
  induction r with
  | alt a b ia _ => exact .altL (ia h)
  | _ => exact h

theorem look_not {r : Re} {s : St} (h : ∀ s', ¬ Rel r s s') : Rel (.look true r) s s := by
  refine .look ?_
  rw [m_none h]
  rfl

theorem me_found {X P w : Text} {b : Nat} {D mk g S : Text} (h : MonthDayAt X P w b D mk g S) : ∃ mt, Ast.middleEndian.search X = some mt := by
  cases hs : Ast.middleEndian.search X with
  | some mt => exact ⟨mt, rfl⟩
  | none =>
    exfalso
    obtain ⟨wk, m, gp, dd, mkr, ap, rng, tw, rng', yr, ws, he, -, -, -, hmf, hfree, -, -, -, hgf, hgfree, -, hdl, -, -, hkfree, hkf, hap, -, -, -⟩ := middleEndian_whole
    have hX := h.text
    have hq : P.length ≤ X.length := by rw [hX]; simp
    have e1 : (startSt X P.length).rest = w ++ ([b] ++ (D ++ (mk ++ (g ++ S)))) := by
      show X.drop _ = _
      rw [hX]
      simp
    obtain ⟨w1, w2, -⟩ := monthForms_checks w h.month
    obtain ⟨cS, hcS, hwS⟩ := h.next
    have r1 : Rel (.cap 1 (.wb false)) (startSt X P.length) { startSt X P.length with caps := [(1, P.length, P.length)] } := by
      refine .cap (.wb ?_)
      unfold St.atWordBoundary
      have hp : (startSt X P.length).prev = P.getLast? := by show (X.take _).getLast? = _; rw [hX]; simp
      rw [e1, hp]
      cases w with
      | nil => exact absurd rfl w1
      | cons c w =>
        cases hc : P.getLast? with
        | none => simp [w2 c (by simp)]
        | some d =>
          have : isWordB d = false := by rw [← Bool.not_eq_true, ← wordChar_iff]; exact h.start d hc
          simp [w2 c (by simp), this]
    obtain ⟨s3, r3, c3, e3⟩ := (lang_of_fullMatch (List.all_eq_true.1 hmf w h.month)).rel hfree (z := { startSt X P.length with caps := [(1, P.length, P.length)] }) e1
    have hgl : Lang gp [b] := by
      have key : ∀ c ∈ [9, 10, 11, 12, 13, 32], (gp.fullMatch [c]).isSome = true := hgf
      refine lang_of_fullMatch (key b ?_)
      have := h.blank
      unfold Blank at this
      simp
      omega
    obtain ⟨s4, r4, c4, e4⟩ := hgl.rel hgfree (z := { s3 with caps := (3, P.length, s3.pos) :: s3.caps }) e3
    have hdf : Lang dg12 D := by
      have key : ∀ c, isDigitB c = true → (Single.set true false [.range 48 57]).test c = true := by
        intro c hc
        have : c < 256 := by unfold isDigitB at hc; simp at hc; omega
        have key : ∀ c < 256, isDigitB c = true → (Single.set true false [.range 48 57]).test c = true := by decide +kernel
        exact key c this hc
      have hd := h.digits
      rcases h.len with hl | hl
      · obtain ⟨c, rfl⟩ := List.length_eq_one_iff.1 hl
        exact ⟨startSt [c] 0, _, .seq (.one rfl (key c (hd c (by simp)))) (.altR (.eps _)), ⟨rfl, rfl, rfl⟩⟩
      · obtain ⟨c, d, rfl⟩ := List.length_eq_two.1 hl
        exact ⟨startSt [c, d] 0, _, .seq (.one rfl (key c (hd c (by simp)))) (.altL (.one rfl (key d (hd d (by simp))))), ⟨rfl, rfl, rfl⟩⟩
    obtain ⟨s5, r5, c5, e5⟩ := hdf.rel (by decide) e4
    obtain ⟨s6, r6, c6, e6⟩ := (lang_of_fullMatch (List.all_eq_true.1 hkf mk h.mark)).rel hkfree (z := { s5 with caps := (5, s4.pos, s5.pos) :: s5.caps }) e5
    have rd : Rel dd s4 s6 := by
      refine leftAlt_rel ?_
      rw [hdl]
      exact .seq (.cap r5) r6
    obtain ⟨g0, g', rfl⟩ : ∃ c t, g = c :: t := by
      cases g with
      | nil => exact absurd rfl h.gapped
      | cons c t => exact ⟨c, t, rfl⟩
    have rl : Rel (.look true (.seq sps ap)) { s6 with caps := (4, s4.pos, s6.pos) :: s6.caps } { s6 with caps := (4, s4.pos, s6.pos) :: s6.caps } := by
      refine look_not fun s' hr => ?_
      obtain ⟨t1, k1, k2⟩ := rel_seq.1 hr
      obtain ⟨u, cu⟩ := k1.consumed
      obtain ⟨v, cv⟩ := k2.consumed
      have hu : Blanks u := fun c hc => isSpace_blank ((show Lang sps u from ⟨_, _, k1, cu⟩).allB isSpaceB (by decide +kernel) c hc)
      have hv := (show Lang ap v from ⟨_, _, k2, cv⟩).words _ hap
      have e7 : (g0 :: g') ++ S = u ++ (v ++ s'.rest) := by
        have a : s6.rest = u ++ t1.rest := cu.rest
        have b : t1.rest = v ++ s'.rest := cv.rest
        rw [← e6, a, b]
      have hlow : toLower v = v := by
        refine lower_infix h.low ⟨P ++ w ++ [b] ++ D ++ mk ++ u, s'.rest, ?_⟩
        rw [hX, e7]
        simp
      rw [hlow] at hv
      have hvh : ∀ v ∈ [txt!"am", txt!"pm"], ∃ c ∈ v.head?, isSpaceB c = false := by decide
      obtain ⟨c, hc, hcs⟩ := hvh v hv
      have hne : v ≠ [] := by rintro rfl; cases hc
      rcases List.append_eq_append_iff.1 e7 with ⟨a, ha, hb⟩ | ⟨a, ha, hb⟩
      · cases a with
        | nil =>
          rw [List.nil_append] at hb
          simp only [List.mem_cons, List.not_mem_nil, or_false] at hv
          rcases hv with rfl | rfl
          · exact h.noHalf.1 ⟨_, hb.symm⟩
          · exact h.noHalf.2 ⟨_, hb.symm⟩
        | cons x a =>
          rw [hb] at hcS
          cases hcS
          exact blank_notWord (hu _ (by rw [ha]; simp)) hwS
      · cases a with
        | nil =>
          rw [List.nil_append] at hb
          simp only [List.mem_cons, List.not_mem_nil, or_false] at hv
          rcases hv with rfl | rfl
          · exact h.noHalf.1 ⟨_, hb⟩
          · exact h.noHalf.2 ⟨_, hb⟩
        | cons x a =>
          cases v with
          | nil => exact hne rfl
          | cons y v =>
            cases hc
            obtain ⟨rfl, -⟩ := List.cons.inj (show c :: (v ++ s'.rest) = x :: (a ++ S) from hb)
            rw [blank_isSpace (h.gap c (by rw [ha]; simp))] at hcs
            cases hcs
    have r7 : ∃ s7, Rel (.seq sp1 sps) { s6 with caps := (4, s4.pos, s6.pos) :: s6.caps } s7 ∧ s7.rest = S ∧ (∃ c, s7.prev = some c ∧ Blank c) := by
      refine ⟨_, .seq (.one (c := g0) (t := g' ++ S) e6 (class_space (h.gap g0 (by simp)))) (rel_star_one.2 ⟨g', S, rfl, fun c hc => class_space (h.gap c (by simp [hc])), rfl⟩), rfl, ?_⟩
      rcases List.eq_nil_or_concat g' with rfl | ⟨t, c, rfl⟩
      · exact ⟨g0, rfl, h.gap g0 (by simp)⟩
      · exact ⟨c, by simp [St.advs], h.gap c (by simp)⟩
    obtain ⟨s7, r7, e7, c, hc, hcb⟩ := r7
    have r8 : Rel (.cap 12 (.wb false)) s7 { s7 with caps := (12, s7.pos, s7.pos) :: s7.caps } := by
      refine .cap (.wb ?_)
      unfold St.atWordBoundary
      rw [hc, e7]
      have : isWordB c = false := by rw [← Bool.not_eq_true, ← wordChar_iff]; exact blank_notWord hcb
      cases S with
      | nil => cases hcS
      | cons d S =>
        cases hcS
        simp [this, wordChar_iff.1 hwS]
    have r9 : Rel (.look true (.seq (.one (.ch true 58)) (.one (.set true false [.cls .digit false])))) { s7 with caps := (12, s7.pos, s7.pos) :: s7.caps } { s7 with caps := (12, s7.pos, s7.pos) :: s7.caps } := by
      refine look_not fun s' hr => ?_
      obtain ⟨t1, k1, k2⟩ := rel_seq.1 hr
      have := rel_first (f := fun c => c == 58) (by decide +kernel) (by decide) k1 (c := cS) (by show s7.rest.head? = _; rw [e7]; exact hcS)
      simp only [beq_iff_eq] at this
      subst this
      revert hwS
      unfold WordChar
      omega
    refine Re.search_none hs P.length hq { s7 with caps := (12, s7.pos, s7.pos) :: s7.caps } ?_
    · rw [he]
      exact .seq r1 (.seq (.altR (.eps _)) (.seq (.cap r3) (.seq r4 (.seq (.cap rd) (.seq rl (.seq r7 (.seq (.altR (.eps _)) (.seq (.altR (.eps _)) (.seq r8 r9)))))))))

/-! ## The other patterns -/

/-- The only number of a text. -/
theorem number_place {P D R A D' B : Text} (hP : ∀ c ∈ P, isDigitB c = false) (hD : ∀ c ∈ D, isDigitB c = true) (hR : ∀ c ∈ R, isDigitB c = false) (hn : D' ≠ []) (hD' : ∀ c ∈ D', isDigitB c = true)
    (hB : ∀ c, B.head? = some c → isDigitB c = false) (e : P ++ (D ++ R) = A ++ D' ++ B) : B = R ∧ P.length ≤ A.length := by
  obtain ⟨c, t, rfl⟩ := List.exists_cons_of_ne_nil hn
  have hd : (P ++ (D ++ R)).drop A.length = c :: (t ++ B) := by rw [e, List.append_assoc, List.drop_left]; rfl
  obtain ⟨h1, h2⟩ := digit_at hP hR hd (hD' c (by simp))
  refine ⟨?_, h1⟩
  have h3 : (P ++ (D ++ R)).drop A.length = D.drop (A.length - P.length) ++ R := by
    rw [List.drop_append, List.drop_eq_nil_of_le h1, List.nil_append, List.drop_append_of_le_length (by omega)]
  rw [h3] at hd
  exact (digits_split (fun c hc => hD c (List.mem_of_mem_drop hc)) hD' (fun c hc => hR c (List.mem_of_mem_head? hc)) hB (show _ = (c :: t) ++ B from hd)).2.symm

theorem md_noDigit {X P w : Text} {b : Nat} {D mk g S : Text} (h : MonthDayAt X P w b D mk g S) : (∀ c ∈ P ++ w ++ [b], isDigitB c = false) ∧ ∀ c ∈ mk ++ (g ++ S), isDigitB c = false := by
  constructor
  · intro c hc
    simp only [List.mem_append, List.mem_singleton] at hc
    rcases hc with (hc | hc) | rfl
    · exact h.before c hc
    · have : ∀ w ∈ monthForms, ∀ c ∈ w, isDigitB c = false := by decide
      exact this w h.month c hc
    · exact blank_noDigit h.blank
  · intro c hc
    simp only [List.mem_append] at hc
    rcases hc with hc | hc | hc
    · exact (mark_letters h.mark c hc).1
    · exact blank_noDigit (h.gap c hc)
    · exact h.after c hc

/-- A month before a number is not a month by itself. -/
theorem month_then_number {X P w : Text} {b : Nat} {D R : Text} (eX : X = P ++ w ++ [b] ++ (D ++ R)) (hw : w ∈ monthForms) (hb : Blank b) (hst : ∀ c, P.getLast? = some c → ¬ WordChar c)
    (hD : ∀ c ∈ D, isDigitB c = true) (hD0 : D ≠ []) (hP : ∀ v ∈ monthForms, ¬ WholeWord v P) (hS : ∀ v ∈ monthForms, ¬ WholeWord v ([b] ++ (D ++ R)))
    {A k x gg B : Text} (e : X = A ++ k ++ (x ++ gg ++ B)) (hk : k ∈ monthForms) (hx : x = [] ∨ x = txt!"." ∧ keepsDot k = true) (hgg : Blanks gg)
    (hA : ∀ c, A.getLast? = some c → ¬ WordChar c) (hB : ∀ c, B.head? = some c → ¬ WordChar c) {z : St} (hz : Rel (.look false monthEnd) z z) (hzr : z.rest = B) : False := by
  obtain ⟨w1, w2, -⟩ := monthForms_checks w hw
  obtain ⟨k1, k2, -⟩ := monthForms_checks k hk
  have hbnd : ∀ c, (x ++ gg ++ B).head? = some c → ¬ WordChar c := by
    intro c hc
    rcases hx with rfl | ⟨rfl, -⟩
    · cases gg with
      | nil => exact hB c hc
      | cons z g => cases hc; exact blank_notWord (hgg _ (by simp))
    · cases hc; unfold WordChar; omega
  have e' : P ++ w ++ ([b] ++ (D ++ R)) = A ++ k ++ (x ++ gg ++ B) := by rw [← e, eX]; simp
  have hap : StandsApart P ([b] ++ (D ++ R)) := ⟨hst, fun c hc => by cases hc; exact blank_notWord hb⟩
  rcases word_elsewhere w1 w2 k1 k2 hap hA hbnd e' with hh | ⟨-, -, he⟩ | hh
  · exact hP k hk hh
  swap
  · exact hS k hk hh
  obtain ⟨d, D', rfl⟩ := List.exists_cons_of_ne_nil hD0
  have hd := hD d (by simp)
  have hdb : isSpaceB d = false := by
    rw [← Bool.not_eq_true]
    intro hc
    have := isSpace_blank hc
    rw [blank_noDigit this] at hd
    cases hd
  have hbs := blank_isSpace hb
  obtain rfl : x = [] := by
    rcases hx with rfl | ⟨rfl, -⟩
    · rfl
    · have : (46 : Nat) = b := (List.cons.inj he).1
      subst this
      revert hbs
      decide
  cases gg with
  | cons y gg =>
    obtain ⟨rfl, he2⟩ := List.cons.inj (show y :: (gg ++ B) = b :: (d :: (D' ++ R)) from he)
    cases gg with
    | nil =>
      refine hB d (by rw [show B = _ from he2]; rfl) (wordChar_iff.2 ?_)
      have : d < 256 := by unfold isDigitB at hd; simp at hd; omega
      have key : ∀ d < 256, isDigitB d = true → isWordB d = true := by decide +kernel
      exact key d this hd
    | cons y' gg =>
      obtain ⟨rfl, -⟩ := List.cons.inj (show y' :: (gg ++ B) = d :: _ from he2)
      rw [blank_isSpace (hgg y' (by simp))] at hdb
      cases hdb
  | nil =>
    have he : B = b :: (d :: (D' ++ R)) := he
    rw [he] at hzr
    obtain ⟨h1, -⟩ := rel_look.1 hz
    have h1 : (Re.m (α := Unit) monthEnd z (fun _ => some ())).isSome = true := by simpa using h1
    obtain ⟨u, hu⟩ := Option.isSome_iff_exists.1 h1
    obtain ⟨s2, hr, -⟩ := Re.m_sound _ _ _ _ hu
    have gap : ∀ {s3 : St}, Rel (.seq sp1 sps) z s3 → s3.rest = d :: (D' ++ R) := by
      intro s3 h3
      obtain ⟨v, cv⟩ := h3.consumed
      have hv : ∀ c ∈ v, isSpaceB c = true := (show Lang (.seq sp1 sps) v from ⟨_, _, h3, cv⟩).allB isSpaceB (by decide +kernel)
      have hm := (show Lang (.seq sp1 sps) v from ⟨_, _, h3, cv⟩).minLen
      have hm : 1 ≤ v.length := hm
      have hvr := cv.rest
      rw [hzr] at hvr
      match v, hm, hv, hvr with
      | [y], _, _, hvr => exact (List.cons.inj hvr).2.symm
      | y :: y' :: v, _, hv, hvr =>
        exfalso
        obtain ⟨-, h4⟩ := List.cons.inj hvr
        obtain ⟨rfl, -⟩ := List.cons.inj (show d :: _ = y' :: _ from h4)
        rw [hv d (by simp)] at hdb
        cases hdb
    rcases rel_alt.1 hr with h | h
    · rcases rel_alt.1 h with h | h
      · rcases rel_alt.1 h with h | h
        · have := rel_first (f := fun x => !isSpaceB x) (by decide +kernel) (by decide) h (c := b) (by rw [hzr]; rfl)
          rw [hbs] at this
          cases this
        · obtain ⟨s3, h3, h4⟩ := rel_seq.1 h
          have := rel_first (f := fun x => !isDigitB x) (by decide +kernel) (by decide) h4 (c := d) (by rw [gap h3]; rfl)
          rw [hd] at this
          cases this
      · obtain ⟨s3, h3, h4⟩ := rel_seq.1 h
        obtain ⟨h5, -⟩ := rel_eol.1 h4
        rw [gap h3] at h5
        cases h5
    · obtain ⟨h5, -⟩ := rel_eol.1 h
      rw [hzr] at h5
      cases h5

theorem md_month {X P w : Text} {b : Nat} {D mk g S : Text} (h : MonthDayAt X P w b D mk g S) (h92 : 92 ∉ X) (hP : ∀ v ∈ monthForms, ¬ WholeWord v P)
    (hS : ∀ v ∈ monthForms, ¬ WholeWord v ([b] ++ (D ++ (mk ++ (g ++ S))))) : Ast.monthName.search X = none := by
  cases hs : Ast.monthName.search X with
  | none => rfl
  | some mt =>
    exfalso
    obtain ⟨-, hle, ⟨s', -, -, -, hrel⟩, -⟩ := Re.search_some hs
    obtain ⟨n1, n2⟩ := md_noDigit h
    have hlong : ∀ v, v <:+: X → (∀ c ∈ v, isDigitB c = true) → v.length < 4 := by
      rintro v ⟨A, B, e⟩ hv
      have h1 := congrArg (fun t => (t.filter isDigitB).length) (e.trans h.text)
      simp only [List.filter_append, List.length_append] at h1
      have f0 : ∀ t : Text, (∀ c ∈ t, isDigitB c = false) → t.filter isDigitB = [] := fun t ht => List.filter_eq_nil_iff.2 fun c hc => by simp [ht c hc]
      have z1 := f0 _ n1
      have z2 := f0 _ n2
      simp only [List.filter_append, List.append_eq_nil_iff] at z1 z2
      rw [z1.1.1, z1.1.2, z1.2, z2.1, z2.2.1, z2.2.2, List.filter_eq_self.2 hv, List.filter_eq_self.2 h.digits] at h1
      have := h.len
      simp at h1
      omega
    obtain ⟨A, k, x, gg, B, e, hk, hx, hgg, hA, hB, hqA, -, -, -, z, hz, hzr⟩ := month_match h.low h92 hlong hle hrel
    exact month_then_number h.text h.month h.blank h.start h.digits (by have := h.len; rintro rfl; simp at this) hP hS e hk hx hgg hA hB hz hzr

theorem month_not_at : ∀ w ∈ monthForms, ∀ v ∈ [txt!"at", txt!"from"], ¬ v <:+ w ∧ ¬ w <:+ v := by decide +kernel

/-- A clock time after a month begins at the blank before its number. -/
theorem clock_start {X P w : Text} {b : Nat} {D R : Text} (hX : toLower X = X) (e : X = P ++ w ++ [b] ++ (D ++ R)) (hw : w ∈ monthForms) (hb : Blank b) (hP : ∀ c ∈ P ++ w ++ [b], isDigitB c = false)
    (hD : ∀ c ∈ D, isDigitB c = true) (hR : ∀ c ∈ R, isDigitB c = false) (hclk : ∀ k ∈ clockKeys, ¬ Occurs k.atStart k.word k.atEnd X) {q : Nat} (hq : q ≤ X.length) {s' : St}
    (h : Rel Ast.timeExpr (startSt X q) s') : q = P.length + w.length := by
  obtain ⟨bb, n, mn, frac, range, hast, hbw, hbg, hfg, hrw, hrg, hk⟩ := timeExpr_all
  rw [hast] at h
  obtain ⟨z1, h1, h⟩ := rel_seq.1 h
  obtain ⟨z2, h2, h⟩ := rel_seq.1 h
  unfold clockRe at h
  obtain ⟨z3, h3, h⟩ := rel_seq.1 h
  have h3 : Rel (.cap 2 d14) z2 z3 := by
    rcases rel_cap2 h3 with h3 | ⟨s'', h3⟩
    · exact h3
    · exfalso
      have := Re.search_needs hk (by decide +kernel) (text := X) (by rw [hX]; exact hclk) (by simp)
      rw [hX] at this
      exact Re.search_none this _ hq _ (.seq h1 (.seq h2 h3))
  obtain ⟨u1, c1⟩ := h1.consumed
  obtain ⟨u2, c2⟩ := h2.consumed
  obtain ⟨u3, c3⟩ := h3.consumed
  have hl3 : Lang d14 u3 := lang_cap ⟨_, _, h3, c3⟩
  have hd3 : ∀ c ∈ u3, isDigitB c = true := fun c hc => hl3.allB _ (by decide +kernel) c hc
  have hm3 : 1 ≤ u3.length := hl3.minLen
  have hl1 : u1.length ≤ 1 := (lang_cap (show Lang (.cap 1 (.alt (.alt .bol blankRe) (.one (.ch true 84)))) u1 from ⟨_, _, h1, c1⟩)).maxLen 1 rfl
  have r1 : X.drop q = u1 ++ z1.rest := c1.rest
  have r2 : z1.rest = u2 ++ z2.rest := c2.rest
  have r3 : z2.rest = u3 ++ z3.rest := c3.rest
  have hu1 : ∀ c ∈ u1, isDigitB c = false := by
    have hl := lang_cap (show Lang (.cap 1 (.alt (.alt .bol blankRe) (.one (.ch true 84)))) u1 from ⟨_, _, h1, c1⟩)
    intro c hc
    have := hl.allB (fun x => !isDigitB x) (by decide +kernel) c hc
    simpa using this
  have hsplit : X = X.take q ++ u1 ++ u2 ++ u3 ++ z3.rest := by
    calc X = X.take q ++ X.drop q := (List.take_append_drop _ _).symm
      _ = _ := by rw [r1, r2, r3]; simp only [List.append_assoc]
  have hi2 : u2 <:+: X := ⟨X.take q ++ u1, u3 ++ z3.rest, by rw [← List.append_assoc]; exact hsplit.symm⟩
  have hu2 : u2 = [] ∨ ∃ v ∈ [txt!"at", txt!"from"], ∃ gg, Blanks gg ∧ u2 = v ++ gg := by
    rcases rel_alt.1 h2 with h2' | h2'
    · left
      have := rel_eps.1 h2'
      have hp := c2.pos
      rw [this] at hp
      exact List.length_eq_zero_iff.1 (by omega)
    · right
      obtain ⟨y, k1, k2⟩ := rel_seq.1 h2'
      obtain ⟨v1, d1⟩ := k1.consumed
      obtain ⟨v2, d2⟩ := k2.consumed
      have e2 : u2 = v1 ++ v2 := c2.word_eq (d1.trans d2)
      refine ⟨v1, ?_, v2, fun c hc => isSpace_blank ((show Lang (.star true blankRe) v2 from ⟨_, _, k2, d2⟩).allB isSpaceB (by decide +kernel) c hc), e2⟩
      have hw := (show Lang bb v1 from ⟨_, _, k1, d1⟩).words _ hbw
      rwa [lower_infix hX (List.IsInfix.trans ⟨[], v2, by rw [e2]; simp⟩ hi2)] at hw
  have hn2 : ∀ c ∈ u2, isDigitB c = false := by
    rcases hu2 with rfl | ⟨v, hv, gg, hg, rfl⟩
    · simp
    · intro c hc
      rcases List.mem_append.1 hc with hc | hc
      · have key : ∀ v ∈ [txt!"at", txt!"from"], ∀ c ∈ v, isDigitB c = false := by decide
        exact key v hv c hc
      · exact blank_noDigit (hg c hc)
  obtain ⟨c, t, rfl⟩ : ∃ c t, u3 = c :: t := by cases u3 with | nil => simp at hm3 | cons c t => exact ⟨c, t, rfl⟩
  have hdc := hd3 c (by simp)
  obtain ⟨w1, -, -⟩ := monthForms_checks w hw
  have hlen : ∀ w ∈ monthForms, 3 ≤ w.length := by decide
  have hlen := hlen w hw
  have hne : u1 ++ u2 ≠ [] := by
    intro h0
    obtain ⟨rfl, rfl⟩ := List.append_eq_nil_iff.1 h0
    have hd : (P ++ w ++ [b] ++ (D ++ R)).drop q = c :: (t ++ z3.rest) := by rw [← e, r1, r2, r3]; rfl
    have := (digit_at hP hR hd hdc).1
    obtain ⟨y, h1', e1'⟩ := rel_cap.1 h1
    have hz1 : z1.pos = q + 0 := c1.pos
    have hy1 : y.pos = q := by rw [e1'] at hz1; exact hz1
    have hq0 : q = 0 := by
      have hone : ∀ d : Single, ¬ Rel (.one d) (startSt X q) y := by
        intro d h
        obtain ⟨v, cv⟩ := h.consumed
        have h1 : 1 ≤ v.length := (show Lang (.one d) v from ⟨_, _, h, cv⟩).minLen
        have h2 : y.pos = q + v.length := cv.pos
        omega
      rcases rel_alt.1 h1' with h | h
      · rcases rel_alt.1 h with h | h
        · obtain ⟨hp, -⟩ := rel_bol.1 h
          have hp : (X.take q).getLast? = none := hp
          rw [List.getLast?_eq_none_iff] at hp
          have := congrArg List.length hp
          rw [List.length_take, Nat.min_eq_left hq] at this
          exact this
        · exact absurd h (hone _)
      · exact absurd h (hone _)
    simp at this
    omega
  obtain ⟨A, y, hA⟩ : ∃ A y, u1 ++ u2 = A ++ [y] := by
    rcases List.eq_nil_or_concat (u1 ++ u2) with h0 | ⟨A, x, h0⟩
    · exact absurd h0 hne
    · exact ⟨A, x, by simpa using h0⟩
  have hy : isDigitB y = false := by
    have : y ∈ u1 ++ u2 := by rw [hA]; simp
    rcases List.mem_append.1 this with h | h
    exacts [hu1 y h, hn2 y h]
  rcases before_digit hP (H := D) (fun c hc => .inl (hD c hc)) hR (A := X.take q ++ A) (x := y) (c := c) (B := t ++ z3.rest) (by
      rw [← e]
      refine hsplit.trans ?_
      rw [List.append_assoc _ u1 u2, hA]
      simp) hdc with hx | hx | hx
  swap
  · rw [hy] at hx; cases hx
  swap
  · subst hx
    have : 58 ∈ u1 ++ u2 := by rw [hA]; simp
    rcases List.mem_append.1 this with h | h
    · have hl := lang_cap (show Lang (.cap 1 (.alt (.alt .bol blankRe) (.one (.ch true 84)))) u1 from ⟨_, _, h1, c1⟩)
      have := hl.allB (fun x => x != 58) (by decide +kernel) 58 h
      cases this
    · rcases hu2 with rfl | ⟨v, hv, gg, hg, rfl⟩
      · cases h
      · rcases List.mem_append.1 h with h | h
        · have key : ∀ v ∈ [txt!"at", txt!"from"], 58 ∉ v := by decide
          exact absurd h (key v hv)
        · have := hg 58 h
          revert this
          unfold Blank
          omega
  rw [List.append_assoc, ← hA] at hx
  rcases hu2 with rfl | ⟨v, hv, gg, hg, rfl⟩
  · have hu : 1 ≤ u1.length := by
      rw [List.append_nil] at hne
      exact List.length_pos_of_ne_nil hne
    have := congrArg List.length hx
    simp only [List.length_append, List.length_take, Nat.min_eq_left hq, List.length_nil, List.length_singleton] at this
    omega
  · exfalso
    have hnb : ∀ w ∈ monthForms, ∀ c ∈ w, isSpaceB c = false := by decide
    have hnv : ∀ v ∈ [txt!"at", txt!"from"], v ≠ [] ∧ ∀ c ∈ v, isSpaceB c = false := by decide
    obtain ⟨v1, v2⟩ := hnv v hv
    have fin : X.take q ++ u1 ++ v = P ++ w := by
      rcases List.eq_nil_or_concat gg with rfl | ⟨g', b', rfl⟩
      · exfalso
        have := congrArg List.getLast? hx
        rw [List.append_nil, ← List.append_assoc, List.getLast?_append, List.getLast?_eq_some_getLast v1, List.getLast?_concat] at this
        simp only [Option.some_or, Option.some.injEq] at this
        have h1 := v2 _ (List.getLast_mem v1)
        rw [this, blank_isSpace hb] at h1
        cases h1
      · rw [List.concat_eq_append, ← List.append_assoc, ← List.append_assoc, ← List.append_assoc] at hx
        obtain ⟨e1, -⟩ := List.append_inj' hx rfl
        rcases List.eq_nil_or_concat g' with rfl | ⟨g'', c, rfl⟩
        · rw [List.append_nil] at e1; exact e1
        · exfalso
          have := congrArg List.getLast? e1
          rw [List.concat_eq_append, ← List.append_assoc, List.getLast?_concat, List.getLast?_append, List.getLast?_eq_some_getLast w1] at this
          simp only [Option.some_or, Option.some.injEq] at this
          have h1 := hnb w hw _ (List.getLast_mem w1)
          rw [← this, blank_isSpace (hg c (by simp))] at h1
          cases h1
    obtain ⟨k1, k2⟩ := month_not_at w hw v hv
    rcases List.suffix_or_suffix_of_suffix (show v <:+ P ++ w from ⟨X.take q ++ u1, fin⟩) (List.suffix_append _ _) with h | h
    exacts [k1 h, k2 h]

/-! ## The answer -/

theorem md_groups {X P w : Text} {b : Nat} {D mk g S : Text} (h : MonthDayAt X P w b D mk g S) {mt : Match} (hm : Ast.middleEndian.search X = some mt) :
    mt.start ≤ P.length ∧ mt.stop = (P ++ w ++ [b] ++ D ++ mk ++ g).length ∧ mt.str 3 = w ∧ mt.str 5 = D ∧ mt.str 6 = [] ∧ mt.str 8 = [] ∧ mt.str 10 = [] ∧
      Ast.middleEndian.search (X.drop mt.stop) = none := by
  obtain ⟨hsub, hle, ⟨s', -, hpos, hcaps, hrel⟩, -⟩ := Re.search_some hm
  obtain ⟨hq, hps, k, l, e, C, hcs, rfl, hC⟩ := me_match h hle hrel
  have hX := h.text
  have hcap : mt.caps = _ := hcaps.symm.trans hcs
  have none : ∀ n, n ≠ 0 → n ≠ 12 → n ≠ 4 → n ≠ 5 → n ≠ 3 → n ≠ 2 → n ≠ 1 → mt.str n = [] := by
    intro n n0 n1 n2 n3 n4 n5 n6
    unfold Match.str
    rw [if_neg (by simpa using n0), hcap, List.append_assoc, capSpan_skip, capSpan_skip]
    · simp [capSpan, Ne.symm n6]
    · intro x hx; rw [hC x hx]; exact n5.symm
    · intro x hx
      simp only [List.mem_cons, List.not_mem_nil, or_false] at hx
      rcases hx with rfl | rfl | rfl | rfl <;> simp <;> omega
  refine ⟨hq, by rw [← hpos, hps], ?_, ?_, none 6 (by decide) (by decide) (by decide) (by decide) (by decide) (by decide) (by decide),
    none 8 (by decide) (by decide) (by decide) (by decide) (by decide) (by decide) (by decide), none 10 (by decide) (by decide) (by decide) (by decide) (by decide) (by decide) (by decide), ?_⟩
  · unfold Match.str
    rw [if_neg (by decide), hcap, hsub]
    show slice _ _ _ = _
    unfold slice
    rw [hX, List.append_assoc, List.append_assoc, List.drop_left, Nat.add_sub_cancel_left, List.take_left]
  · unfold Match.str
    rw [if_neg (by decide), hcap, hsub]
    show slice _ _ _ = _
    unfold slice
    rw [hX, show P.length + w.length + 1 = (P ++ w ++ [b]).length by simp; omega, List.drop_left, Nat.add_sub_cancel_left, List.take_left]
  · have hd : X.drop mt.stop = S := by
      rw [← hpos, hps, hX, show P ++ w ++ [b] ++ (D ++ (mk ++ (g ++ S))) = P ++ w ++ [b] ++ D ++ mk ++ g ++ S by simp, List.drop_left]
    have hi : S <:+: X := ⟨P ++ w ++ [b] ++ D ++ mk ++ g, [], by rw [hX]; simp⟩
    rw [hd, ← lower_infix h.low hi]
    refine middleEndian_numbers ?_ ?_
    · intro w m gap o d h1 h2 h3 h4 h5 hin
      rw [lower_infix h.low hi] at hin
      exact h.ordinals w m gap o d h1 h2 h3 h4 h5 (hin.trans hi)
    · intro w m gap c h1 h2 h3 hin
      rw [lower_infix h.low hi] at hin
      have h4 := h.after c (hin.subset (by simp))
      rw [digit_iff.1 h3] at h4
      cases h4

/-- What the parser makes of a month and a day. -/
theorem middleEndian_reads {rt : Rt} {g : Globals} {tx : Text} {mt : Match} {ref : PTime} {idx m d : Nat} {y : Int}
    (hm1 : 1 ≤ m) (hm2 : m ≤ 12) (hd1 : 1 ≤ d) (hd2 : d ≤ 31)
    (g3 : monthConstants.get (mt.str 3) = m) (hday : middleEndianDay mt = .ok (d : Int)) (g6 : mt.str 6 = [])
    (hy : middleEndianYear mt = .ok (some (-1))) (hyy : nearestYear ref m d = .ok y) :
    ∃ res, middleEndianExtract rt g tx mt ref idx = .ok res ∧ res.index = PResult.toU32 idx ∧ res.text = mt.str 0 ∧ (res.startDate.get .year = y ∧ res.startDate.get .month = m ∧ res.startDate.get .mday = d ∧ res.startDate.get .hour = 0 ∧ res.startDate.get .min = 0 ∧ res.startDate.get .sec = 0) ∧ res.hasEnd = false ∧
      ∀ t, t ≠ Tag.middleEndian → res.getTag t = false := by
  unfold middleEndianExtract
  simp only [g3, hday, Out.bind_ok, hy]
  rw [if_neg (by omega)]
  unfold middleEndianRange
  rw [g6]
  have : (if (-1 : Int) ≠ -1 then pure (-1) else nearestYear ref (m : Int) (d : Int) : Out Int) = .ok y := by
    rw [if_neg (by simp)]; exact hyy
  rw [this]
  simp only [Out.bind_ok, List.isEmpty_nil, if_true, Out.pure_eq]
  have tag : ∀ r : PResult, r.tags = (fun _ => none) → ∀ t, t ≠ Tag.middleEndian → (r.setTag .middleEndian).getTag t = false := by
    intro r hr t ht
    unfold PResult.setTag
    rw [hr]
    simp [PResult.getTag, ht]
  by_cases h2 : (mt.str 2).isEmpty = true
  · rw [if_pos h2]
    exact ⟨_, rfl, rfl, rfl, ⟨rfl, rfl, rfl, rfl, rfl, rfl⟩, rfl, tag _ rfl⟩
  · rw [if_neg h2]
    exact ⟨_, rfl, rfl, rfl, ⟨rfl, rfl, rfl, rfl, rfl, rfl⟩, rfl, tag _ rfl⟩

/-- The words of the rest, after the day. -/
theorem md_rest {b : Nat} {D mk g S v : Text} (hb : Blank b) (hD : ∀ c ∈ D, isDigitB c = true) (hD0 : D ≠ []) (hmk : mk ∈ dayMarks) (hg : Blanks g) (hg0 : g ≠ []) (hv : v ∈ monthForms)
    (h : WholeWord v ([b] ++ (D ++ (mk ++ (g ++ S))))) : WholeWord v S := by
  obtain ⟨v1, v2, -⟩ := monthForms_checks v hv
  have hvd : ∀ c ∈ v, isDigitB c = false := by
    have : ∀ w ∈ monthForms, ∀ c ∈ w, isDigitB c = false := by decide
    exact this v hv
  obtain ⟨a, e, he, ha, hb'⟩ := h
  have hvb : v.head?.any isWordB = true ∧ v.getLast?.any isWordB = true := by
    constructor
    · cases v with
      | nil => exact absurd rfl v1
      | cons c v => exact v2 c (by simp)
    · rw [List.getLast?_eq_some_getLast v1]; exact v2 _ (List.getLast_mem _)
  have ha := ha rfl
  have hb' := hb' rfl
  have hword : ∀ c ∈ D ++ mk, isWordB c = true := by
    intro c hc
    rcases List.mem_append.1 hc with hc | hc
    · have hd := hD c hc
      have : c < 256 := by unfold isDigitB at hd; simp at hd; omega
      have key : ∀ d < 256, isDigitB d = true → isWordB d = true := by decide +kernel
      exact key c this hd
    · have key : ∀ mk ∈ dayMarks, ∀ c ∈ mk, isWordB c = true := by decide
      exact key mk hmk c hc
  have hne : D ++ mk ≠ [] := by simp [hD0]
  have hap : StandsApart [b] (g ++ S) := by
    refine ⟨fun c hc => by cases hc; exact blank_notWord hb, fun c hc => ?_⟩
    cases g with
    | nil => exact absurd rfl hg0
    | cons y g => cases hc; exact blank_notWord (hg _ (by simp))
  rcases word_elsewhere hne hword v1 v2 hap ha hb' (by rw [← he]; simp) with h | ⟨-, h, -⟩ | h
  · exfalso
    obtain ⟨a, e, he, -, -⟩ := h
    cases v with
    | nil => exact v1 rfl
    | cons c v =>
      have : c ∈ [b] := by rw [he]; simp
      rw [List.mem_singleton] at this
      subst this
      exact blank_notWord hb (wordChar_iff.2 (v2 c (by simp)))
  · exfalso
    obtain ⟨c, D', rfl⟩ := List.exists_cons_of_ne_nil hD0
    have := hvd c (by rw [h]; simp)
    rw [hD c (by simp)] at this
    cases this
  · obtain ⟨a, e, he, ha, hb'⟩ := h
    rcases List.append_eq_append_iff.1 (show g ++ S = a ++ (v ++ e) by rw [he]; simp) with ⟨t, h1, h2⟩ | ⟨t, h1, h2⟩
    · refine ⟨t, e, by rw [h2]; simp, fun _ c hc => ha rfl c ?_, fun _ => hb' rfl⟩
      rw [h1, List.getLast?_append, hc]
      rfl
    · cases t with
      | nil => exact ⟨[], e, by rw [List.nil_append, ← List.nil_append S]; exact h2.symm, fun _ c hc => (by cases hc), fun _ => hb' rfl⟩
      | cons c t =>
        exfalso
        cases v with
        | nil => exact v1 rfl
        | cons d v =>
          obtain ⟨rfl, -⟩ := List.cons.inj (show d :: (v ++ e) = c :: (t ++ S) from h2)
          exact blank_notWord (hg d (by rw [h1]; simp)) (wordChar_iff.2 (v2 d (by simp)))

/-- **C88.** If a text names one month, followed by one blank, a day of that month in digits (with or without `st`, `nd`, `rd`, `th`), blanks and another word, and no other date or time, then
the program prints that day, at midnight, in the year that puts it nearest to the reference date, whatever the other words are, and in upper or lower case. -/
theorem c88_month_and_day_in_any_text (rt : Rt) (hrt : Rt.Defined rt) (sort : List PResult → List PResult) (hs : Sorts sort) (ref : PTime) (x : DateTime) (hx : RefReads ref x)
    (h1401 : 1401 ≤ x.year) (h9998 : x.year ≤ 9998) (p v : Text) (b : Nat) (short : Bool) (m d : Nat) (k g s : Text) (hw : toLower v ∈ monthForms) (hm : monthWord (toLower v) m = true)
    (hps : ∀ c, p.getLast? = some c → ¬ WordChar c) (hbl : Blank b) (hshort : short = true → d < 10) (hc : Civil x.year m d) (h29 : m = 2 → d ≤ 28) (h28 : ¬ (m = 2 ∧ d = 28 ∧ Leap (x.year + 1)))
    (hk : toLower k ∈ dayMarks) (hg : Blanks g) (hg0 : g ≠ []) (hnext : ∃ c, s.head? = some c ∧ WordChar c) (hrange : ¬ txt!"to" <+: toLower s) (hhalf : ¬ txt!"am" <+: toLower s ∧ ¬ txt!"pm" <+: toLower s)
    (hbare : k = [] → ¬ SaysHalf (g ++ s)) (hp : NoDigits p) (hd : NoDigits s) (hb : ∀ c ∈ s, c < 256)
    (h : FewDateWords [toLower v] (p ++ v ++ [b] ++ (hourText short d ++ (k ++ (g ++ s))))) (hnp : ¬ WholeWord (toLower v) (toLower p)) (hns : ¬ WholeWord (toLower v) (toLower s))
    (hlen : (p ++ v ++ [b] ++ (hourText short d ++ (k ++ (g ++ s)))).length < 4294967296) :
    ∃ y, NearestYear x.date m d y ∧ mainRun rt sort (p ++ v ++ [b] ++ (hourText short d ++ (k ++ (g ++ s)))) ref = .ok (foundLine ++ (DateTime.mk y m d 0 0 0).format) := by
  have lb : ∀ {g : Text}, Blanks g → toLower g = g := by
    intro g hg
    refine (List.map_congr_left fun c hc => ?_).trans (List.map_id _)
    have := hg c hc
    unfold Blank at this
    unfold lowerB
    rw [if_neg (by omega)]
    rfl
  have hT : toLower (p ++ v ++ [b] ++ (hourText short d ++ (k ++ (g ++ s)))) = toLower p ++ toLower v ++ [b] ++ (hourText short d ++ (toLower k ++ (g ++ toLower s))) := by
    simp only [toLower_append, toLower_hourText, lb hg, lb (g := [b]) (fun c hc => by rw [List.mem_singleton] at hc; rw [hc]; exact hbl)]
  generalize hX : p ++ v ++ [b] ++ (hourText short d ++ (k ++ (g ++ s))) = X at *
  have hb2 := monthLength_bounds x.year m hc.1 hc.2.1
  have hd31 : d ≤ 31 := by have := hc.2.2.2; omega
  have hD : ∀ c ∈ hourText short d, isDigitB c = true := by
    intro c hc
    cases short <;> simp [hourText, two] at hc
    · rcases hc with rfl | rfl <;> exact dig_digit _
    · subst hc; exact dig_digit _
  have hD0 : hourText short d ≠ [] := by cases short <;> simp [hourText, two]
  have hnext' : ∃ c, (toLower s).head? = some c ∧ WordChar c := by
    obtain ⟨c, h1, h2⟩ := hnext
    exact ⟨lowerB c, by unfold toLower; rw [List.head?_map, h1]; rfl, (wordChar_lower c).2 h2⟩
  have hst : ∀ c, (toLower p).getLast? = some c → ¬ WordChar c := by
    intro c hc
    unfold toLower at hc
    rw [List.getLast?_map] at hc
    obtain ⟨z, hz', rfl⟩ := Option.map_eq_some_iff.1 hc
    rw [wordChar_lower]
    exact hps z hz'
  have hmd : MonthDayAt (toLower X) (toLower p) (toLower v) b (hourText short d) (toLower k) g (toLower s) :=
    { text := hT, low := toLower_toLower X, month := hw, blank := hbl, before := lower_noDigits hp, start := hst, digits := hD
      len := by rw [hourText_length]; cases short <;> simp
      mark := hk, gap := hg, gapped := hg0, next := hnext', after := lower_noDigits hd, noRange := hrange, noHalf := hhalf, ordinals := h.dates }
  obtain ⟨mt, hmt⟩ := me_found hmd
  obtain ⟨hst1, hst2, g3, g5, g6, g8, g10, hno⟩ := md_groups hmd hmt
  have hm12 : 1 ≤ m ∧ m ≤ 12 := ⟨hc.1, hc.2.1⟩
  obtain ⟨gm, -⟩ := monthForms_get _ hw m (by omega) hm
  have hd100 : d < if short then 10 else 100 := by
    cases short
    · show d < 100; omega
    · exact hshort rfl
  have hday : middleEndianDay mt = .ok (d : Int) := by
    unfold middleEndianDay
    rw [g5, if_neg (by cases short <;> simp [hourText, two]), stoi_hourText hd100]
    show Out.ok (toU16 d) = _
    rw [show toU16 (d : Int) = d by unfold toU16; omega]
  have hyear : middleEndianYear mt = .ok (some (-1)) := by
    unfold middleEndianYear
    rw [g8, g10]
    rfl
  obtain ⟨y, hy⟩ := nearestYear_ok hx hc h1401 h9998
  obtain ⟨-, -, -, y', rfl, hyy, hn⟩ := nearestYear_sound hx hy
  obtain ⟨res, r0, r1, r2, r3, r4, r5⟩ := middleEndian_reads (rt := rt) (g := integerWords) (tx := toLower X) (idx := mt.start) hm12.1 hm12.2 hc.2.2.1 hd31 (by rw [g3]; exact gm) hday g6 hyear hy
  refine ⟨y', hn h29 h28, ?_⟩
  have hdates : res.hasPossibleDates = true := hasPossibleDates_of_year (by rw [r3.1]; omega)
  have hret : ParserReturns rt ref X middleEndianParser [res.copy] := ⟨_, execute_one hrt.stale middleEndian_pattern middleEndian_min hmt (pureExtract_ok r0) hdates hno⟩
  have hap : StandsApart (toLower p) ([b] ++ (hourText short d ++ (toLower k ++ (g ++ toLower s)))) := ⟨hst, fun c hc => by cases hc; exact blank_notWord hbl⟩
  have hT' : toLower X = toLower p ++ toLower v ++ ([b] ++ (hourText short d ++ (toLower k ++ (g ++ toLower s)))) := by rw [hT]; simp
  have hall := other_month hT' hap h hnp (fun hh => hns (md_rest hbl hD hD0 hk hg hg0 hw hh))
  have e6 := md_month hmd (lower_no92 h.backslash) (fun v hv hh => hall v hv (.inl hh)) (fun v hv hh => hall v hv (.inr hh))
  obtain ⟨i1, i2, i3, i4, i5⟩ := month_others _ hw
  obtain ⟨n1, n2⟩ := md_noDigit hmd
  have hHc : ∀ c ∈ hourText short d, isDigitB c = true ∨ c = 58 := fun c hc => .inl (hD c hc)
  have hblank : ∀ c, (toLower p ++ toLower v ++ [b]).getLast? = some c → Blank c := by
    intro c hc
    rw [List.getLast?_concat] at hc
    cases hc
    exact hbl
  have e9 := iso_clock n1 hHc n2 hT hblank
  have hclk : ∀ k ∈ clockKeys, ¬ Occurs k.atStart k.word k.atEnd (toLower X) := by
    intro k hk
    obtain ⟨w, hw', hk⟩ : ∃ w ∈ clockWords, k ∈ clockKeysOf w := by
      rcases List.mem_append.1 hk with hk | hk
      · exact ⟨_, by simp [clockWords], hk⟩
      · exact ⟨_, by simp [clockWords], hk⟩
    obtain ⟨c1, c2, c3⟩ := h.clock w hw'
    simp only [clockKeysOf, List.mem_cons, List.not_mem_nil, or_false] at hk
    rcases hk with rfl | rfl | rfl
    · exact c1
    · exact not_infix c2
    · exact not_infix c3
  have quiet : ∀ {P : Parser} {r : Re}, P.pattern = some r → r.search (toLower X) = none →
      ∃ rs, ParserReturns rt ref X P rs ∧ ∀ x ∈ rs, x = res.copy ∨ (Overlap x res.copy ∧ x.textLength < res.copy.textLength) := by
    intro P r hr hn
    refine ⟨[], silent_returns ?_, by simp⟩
    unfold silent
    rw [hr]
    simp only [hn, Option.isNone_none]
  have hok := Re.search_ok hmt
  have hXl : (toLower X).length = X.length := by simp [toLower]
  have hmtl := hok.le
  have hmts := hok.stop_le
  have hix : res.copy.index = mt.start := by
    rw [copy_index, r1]
    unfold PResult.toU32
    omega
  have hml : res.copy.textLength = mt.stop - mt.start := by
    unfold PResult.textLength
    rw [copy_text, r2, ← hok.len]
    rfl
  have hsl := no_slashes h
  rw [run_near hrt hs hlen (r := res.copy) ⟨middleEndianParser, by simp [mainParsers], _, hret, by simp⟩ ?_ ?_]
  · have hb' := monthLength_bounds y' m hm12.1 hm12.2
    have hcv : CivilInRange y' m d := by
      refine ⟨by omega, by omega, hm12.1, hm12.2, hc.2.2.1, ?_⟩
      show d ≤ monthLength y' m
      by_cases h2 : m = 2
      · have := h29 h2; omega
      · have : monthLength y' m = monthLength x.year m := by unfold monthLength; split <;> simp_all
        rw [this]; exact hc.2.2.2
    rw [c08_toDate_prints_start res.copy ⟨y', m, d, 0, 0, 0⟩ ⟨hcv, by simp, by simp, by simp⟩ r3 r4 (r5 _ (by decide))]
    rfl
  · intro P hPm
    simp only [mainParsers, List.mem_cons, List.not_mem_nil, or_false] at hPm
    rcases hPm with rfl | rfl | rfl | rfl | rfl | rfl | rfl | rfl | rfl | rfl | rfl | rfl
    · exact quiet casualTime_pattern (no_casualTime h i1)
    · exact quiet deadline_pattern (no_deadline_search (h.deadlines i4))
    · refine ⟨[], silent_returns (by unfold silent; rw [dayOfWeek_pattern]), by simp⟩
    · exact quiet casualDate_pattern (no_casualDate h i2)
    · exact ⟨_, hret, fun z hz => .inl (by simpa using hz)⟩
    · exact quiet timeLater_pattern (hsl Ast.timeLater (by simp))
    · exact quiet monthName_pattern e6
    · exact quiet timeAgo_pattern (hsl Ast.timeAgo (by simp))
    · obtain ⟨rs, hrs⟩ := clock_returns hrt hx X
      refine ⟨rs, hrs, fun z hz => .inr ?_⟩
      have hmn := execute_mentions hrt.stale hrt.stops timeExpr_exact timeExpr_pattern timeExpr_min hlen hrs z hz
      unfold mentions at hmn
      rw [List.drop_zero] at hmn
      cases hsr : Ast.timeExpr.search (toLower X) with
      | none => rw [hsr] at hmn; simp at hmn
      | some mc =>
        rw [hsr] at hmn
        obtain ⟨-, hcle, ⟨s', -, -, -, hrel⟩, -⟩ := Re.search_some hsr
        have hstart := clock_start (toLower_toLower X) hT hw hbl n1 hD n2 hclk hcle hrel
        obtain ⟨A, D', B, e, d0, d1, -, -, d4, -⟩ := clock_match (toLower_toLower X) hcle hrel hclk
        obtain ⟨rfl, -⟩ := number_place n1 hD n2 d0 d1 (fun c hc => (d4 c hc).1) (hT.symm.trans e)
        have hk0 : toLower k = [] := by
          have key : ∀ mk ∈ dayMarks, mk = [] ∨ ∃ c ∈ mk.head?, isWordB c = true ∧ c ≠ 97 ∧ c ≠ 112 ∧ c ≠ 111 := by decide
          rcases key _ hk with h | ⟨c, hc, hw, c1, c2, c3⟩
          · exact h
          · exfalso
            have hh : (toLower k ++ (g ++ toLower s)).head? = some c := by
              cases hkk : toLower k with
              | nil => rw [hkk] at hc; cases hc
              | cons y t => rw [hkk] at hc; exact hc
            rcases (d4 c hh).2 (wordChar_iff.2 hw) with h | h | h
            exacts [c1 h, c2 h, c3 h]
        have hk' : k = [] := by unfold toLower at hk0; exact List.map_eq_nil_iff.1 hk0
        have hca : ClockAt (toLower p ++ toLower v ++ [b]) (hourText short d) .none [] none (g ++ toLower s) :=
          { before := n1, after := fun c hc => n2 c (List.mem_append_right _ hc), lower := by rw [toLower_append, lb hg, toLower_toLower], nonempty := hD0, digits := hD
            short := by rw [hourText_length]; cases short <;> decide
            half := .inl ⟨rfl, rfl, by
              have := hbare hk'
              unfold SaysHalf at this ⊢
              rwa [toLower_append, toLower_toLower, ← toLower_append]⟩
            apart := fun c hc => by
              cases g with
              | nil => exact absurd rfl hg0
              | cons y g => cases hc; exact blank_notWord (hg _ (by simp))
            lead := hblank
            bytes := fun c hc => by
              rcases List.mem_append.1 hc with hc | hc
              · have := hg c hc; unfold Blank at this; omega
              · unfold toLower at hc
                obtain ⟨z, hz', rfl⟩ := List.mem_map.1 hc
                have := hb z hz'
                unfold lowerB
                split <;> omega
            clock := by
              have : toLower p ++ toLower v ++ [b] ++ (hourText short d ++ (Tail.none.text ++ ([] ++ (g ++ toLower s)))) = toLower X := by rw [hT, hk0]; rfl
              rw [this]; exact hclk
            whole := by
              have : toLower p ++ toLower v ++ [b] ++ (hourText short d ++ (Tail.none.text ++ ([] ++ (g ++ toLower s)))) = toLower X := by rw [hT, hk0]; rfl
              rw [this, toLower_toLower] }
        obtain ⟨mt', e', hsr', e1, e2, l1, l2, hstop, -, -, -, -, -, hn'⟩ := clock_in_text hca (T := toLower X) (by rw [hT, hk0]; rfl)
        rw [hsr] at hsr'
        cases hsr'
        simp only [Nat.zero_add] at hmn
        have hnil : mentions Ast.timeExpr true (toLower X) X.length mc.stop = [] := by
          cases hn : X.length with
          | zero => rfl
          | succ n => unfold mentions; rw [hn']
        rw [hnil, List.mem_singleton] at hmn
        simp only [if_true, Prod.mk.injEq, Match.length] at hmn
        have hgl : 1 ≤ g.length := List.length_pos_of_ne_nil hg0
        have hDl : 1 ≤ (hourText short d).length := List.length_pos_of_ne_nil hD0
        rw [hk0] at hst2
        simp only [List.length_append, List.length_nil, List.length_singleton, Tail.text] at hst2 hstop l2
        have hvl : ∀ w ∈ monthForms, 3 ≤ w.length := by decide
        have hvl := hvl _ hw
        unfold Overlap stop
        rw [hix, hml]
        omega
    · exact quiet iso_pattern e9
    · exact quiet holiday_pattern (no_holiday h i3)
    · exact quiet week_pattern (no_week_search (h.weeks i5))
  · exact r5 _ (by decide)

/-! ## The conditions are met, and needed -/

/-- What is checked of a text with a month and a day. -/
def monthDayChecks (p v : Text) (short : Bool) (d : Nat) (k g s : Text) : Bool :=
  !p.getLast?.any isWordB && s.head?.any isWordB && g.all isSpaceB && !txt!"to".isPrefixOf (toLower s) && !txt!"am".isPrefixOf (toLower s) && !txt!"pm".isPrefixOf (toLower s) &&
    (!k.isEmpty || !halfB (g ++ s)) && (p ++ s).all (fun c => !isDigitB c) && s.all (fun c => decide (c < 256)) &&
    ((dateWordChecks (p ++ v ++ [32] ++ (hourText short d ++ (k ++ (g ++ s)))) [toLower v]).drop 1).all id && !occursB true (toLower v) true (toLower p) &&
    !occursB true (toLower v) true (toLower s)

/-- The conditions are met by ordinary sentences. -/
theorem c88_conditions_are_met : ∀ x ∈ [(txt!"We leave on ", txt!"March", 3, true, 5, txt!"th", txt!" ", txt!"with Bob, as ever."), (txt!"", txt!"SEPT", 9, false, 5, txt!"", txt!"  ", txt!"was fine"),
      (txt!"(Sunday, ", txt!"Dec", 12, false, 31, txt!"ST", txt!" ", txt!"is free)"), (txt!"the ides of ", txt!"march", 3, false, 15, txt!"", txt!" ", txt!"had come")],
    match x with
    | (p, v, m, short, d, k, g, s) =>
      toLower v ∈ monthForms ∧ monthWord (toLower v) m = true ∧ (∀ c, p.getLast? = some c → ¬ WordChar c) ∧ (short = true → d < 10) ∧ Civil 2019 m d ∧ (m = 2 → d ≤ 28) ∧ toLower k ∈ dayMarks ∧
        Blanks g ∧ g ≠ [] ∧ (∃ c, s.head? = some c ∧ WordChar c) ∧ ¬ txt!"to" <+: toLower s ∧ (¬ txt!"am" <+: toLower s ∧ ¬ txt!"pm" <+: toLower s) ∧ (k = [] → ¬ SaysHalf (g ++ s)) ∧
        NoDigits p ∧ NoDigits s ∧ (∀ c ∈ s, c < 256) ∧ FewDateWords [toLower v] (p ++ v ++ [32] ++ (hourText short d ++ (k ++ (g ++ s)))) ∧ ¬ WholeWord (toLower v) (toLower p) ∧
        ¬ WholeWord (toLower v) (toLower s) := by
  have hck : ∀ x ∈ [(txt!"We leave on ", txt!"March", 3, true, 5, txt!"th", txt!" ", txt!"with Bob, as ever."), (txt!"", txt!"SEPT", 9, false, 5, txt!"", txt!"  ", txt!"was fine"),
      (txt!"(Sunday, ", txt!"Dec", 12, false, 31, txt!"ST", txt!" ", txt!"is free)"), (txt!"the ides of ", txt!"march", 3, false, 15, txt!"", txt!" ", txt!"had come")],
    match x with
    | (p, v, m, short, d, k, g, s) =>
      toLower v ∈ monthForms ∧ monthWord (toLower v) m = true ∧ (short = true → d < 10) ∧ (1 ≤ m ∧ m ≤ 12 ∧ 1 ≤ d ∧ d ≤ monthLength 2019 m) ∧ (m = 2 → d ≤ 28) ∧ toLower k ∈ dayMarks ∧ g ≠ [] ∧
      monthDayChecks p v short d k g s = true := by decide +kernel
  rintro ⟨p, v, m, short, d, k, g, s⟩ hx
  obtain ⟨h1, h2, h3, h4, h5, h6, h7, h8⟩ := hck _ hx
  unfold monthDayChecks at h8
  simp only [Bool.and_eq_true, Bool.not_eq_true', Bool.or_eq_true, List.all_eq_true, decide_eq_true_eq] at h8
  obtain ⟨⟨⟨⟨⟨⟨⟨⟨⟨⟨⟨a1, a2⟩, a3⟩, a4⟩, a5⟩, a6⟩, a7⟩, a8⟩, a9⟩, a10⟩, a11⟩, a12⟩ := h8
  have pre : ∀ {u t : Text}, u.isPrefixOf t = false → ¬ u <+: t := by
    intro u t h hp
    rw [List.isPrefixOf_iff_prefix.2 hp] at h
    cases h
  refine ⟨h1, h2, fun c hc => ?_, h3, h4, h5, h6, fun c hc => isSpace_blank (a3 c hc), h7, ?_, pre a4, ⟨pre a5, pre a6⟩, fun hk => ?_, fun c hc => ?_, fun c hc => ?_, a9, fewDateWords_of (List.all_eq_true.2 a10),
    occursB_sound a11, occursB_sound a12⟩
  · rw [hc] at a1; rw [wordChar_iff]; simpa using a1
  · cases hs : s.head? with
    | none => rw [hs] at a2; cases a2
    | some c => rw [hs] at a2; exact ⟨c, rfl, wordChar_iff.2 a2⟩
  · subst hk
    exact halfB_sound (a7.resolve_left (by simp))
  · exact not_digit_iff.2 (a8 c (by simp [hc]))
  · exact not_digit_iff.2 (a8 c (by simp [hc]))

/-- **C88: the conditions are needed.** With nothing, a full stop, a comma or `am` after the day, with a range of days, beside another number and inside a word, something else is printed than the
5th of March. -/
theorem c88_conditions_are_needed : ∀ x ∈ [(txt!"", txt!" 5th"), (txt!"", txt!" 5th."), (txt!"we left on ", txt!" 5th, with Bob"), (txt!"", txt!" 5 to 7 is fine"), (txt!"", txt!" 5 am"), (txt!"", txt!" 5 2018 was cold"),
      (txt!"1 or ", txt!" 5 was cold"), (txt!"a", txt!" 5 was cold")],
    mainRun (Rt.usual 0) sortKeep (x.1 ++ txt!"march" ++ x.2) exampleRef ≠ .ok (foundLine ++ (DateTime.mk 2019 3 5 0 0 0).format) := by
  decide +kernel

end Chrono.Props
