import Verif.Props.P70_MonthYearInText
/-!
# C90: a month and a day that no word follows
-/
namespace Chrono.Props
open Chrono Chrono.Spec Chrono.Boost

/-- Every match of the middle-endian pattern in a text with one number, after a month and a blank, reads that number, and then a mark, blanks and what the pattern wants after them. -/
theorem me_front {X P w : Text} {b : Nat} {D R : Text} (hX : toLower X = X) (e : X = P ++ w ++ [b] ++ (D ++ R)) (hw : w ∈ monthForms) (hb : Blank b) (hP : ∀ c ∈ P ++ w ++ [b], isDigitB c = false)
    (hD : ∀ c ∈ D, isDigitB c = true) (hR : ∀ c ∈ R, isDigitB c = false)
    (hord' : ∀ w m gap o d, monthWord w m = true → Gap gap → 1 ≤ d → d ≤ 31 → words o = ordinalName d → ¬ w ++ gap ++ o <:+: X) {q : Nat} {s' : St} (hrel : Rel Ast.middleEndian (startSt X q) s') :
    ∃ mk u T, R = mk ++ (u ++ T) ∧ mk ∈ [txt!"st", txt!"nd", txt!"rd", txt!"th", []] ∧ Blanks u ∧ u ≠ [] ∧
      ((txt!"to" <+: T ∨ txt!"-" <+: T) ∨ ∃ c, T.head? = some c ∧ WordChar c) := by
  obtain ⟨wk, m, gp, dd, mkr, ap, rng, tw, rng', yr, ws, he, hwg, hmw, hws, -, -, hmg, hga, hgg, -, -, hord, hdl, hkw, hkg, -, -, hap, rfl, htw, hyr⟩ := middleEndian_whole
  rw [he] at hrel
  simp only [rel_seq] at hrel
  obtain ⟨s1, h1, s2, h2, s3, h3, s4, h4, s5, h5, s6, h6, s7, h7, s8, h8, s9, h9, s10, h10, h11⟩ := hrel
  have h7 := rel_seq.2 h7
  obtain ⟨z1, h1', rfl⟩ := rel_cap.1 h1
  obtain ⟨-, rfl⟩ := rel_wb.1 h1'
  obtain ⟨z3, h3', rfl⟩ := rel_cap.1 h3
  obtain ⟨z5, h5', rfl⟩ := rel_cap.1 h5
  obtain ⟨-, rfl⟩ := rel_look.1 h6
  obtain ⟨u2, c2⟩ := h2.consumed
  obtain ⟨u3, c3⟩ := h3'.consumed
  obtain ⟨u4, c4⟩ := h4.consumed
  obtain ⟨u5, c5⟩ := h5'.consumed
  have r2 : X.drop q = u2 ++ s2.rest := c2.rest
  have r3 : s2.rest = u3 ++ z3.rest := c3.rest
  have r4 : z3.rest = u4 ++ s4.rest := c4.rest
  have r5 : s4.rest = u5 ++ z5.rest := c5.rest
  have htext : X = X.take q ++ u2 ++ u3 ++ u4 ++ (u5 ++ z5.rest) := by
    calc X = X.take q ++ X.drop q := (List.take_append_drop _ _).symm
      _ = _ := by rw [r2, r3, r4, r5]; simp only [List.append_assoc]
  have i3 : u3 <:+: X := ⟨X.take q ++ u2, u4 ++ (u5 ++ z5.rest), by rw [← List.append_assoc]; exact htext.symm⟩
  have i5 : u5 <:+: X := ⟨X.take q ++ u2 ++ u3 ++ u4, z5.rest, by rw [List.append_assoc _ u5]; exact htext.symm⟩
  have hmem := (show Lang m u3 from ⟨_, _, h3', c3⟩).words _ hmw
  rw [lower_infix hX i3] at hmem
  obtain ⟨n, -, hn⟩ := List.any_eq_true.1 (List.all_eq_true.1 hws _ hmem)
  have hgap : Gap u4 := gap_of ⟨_, _, h4, c4⟩ hga
  have hul := month_words_list hn
  rcases ordinals_rel hord h5' with hl | hw
  swap
  · obtain ⟨k, k1, k2, ho⟩ := hw u5 c5 (lower_infix hX i5)
    refine absurd ⟨X.take q ++ u2, z5.rest, ?_⟩ (hord' u3 n u4 u5 k hn hgap k1 k2 ho)
    rw [← List.append_assoc, ← List.append_assoc, List.append_assoc _ u5]
    exact htext.symm
  rw [hdl] at hl
  obtain ⟨y5, hl1, hl2⟩ := rel_seq.1 hl
  obtain ⟨y6, hl1', rfl⟩ := rel_cap.1 hl1
  obtain ⟨v1, d1⟩ := hl1'.consumed
  obtain ⟨v2, d2⟩ := hl2.consumed
  have q1 : s4.rest = v1 ++ y6.rest := d1.rest
  have q2 : y6.rest = v2 ++ z5.rest := d2.rest
  obtain ⟨v1n, v1d⟩ := isDigits_of (show Lang dg12 v1 from ⟨_, _, hl1', d1⟩) (by decide +kernel) (by decide)
  have v1l : v1.length ≤ 2 := (show Lang dg12 v1 from ⟨_, _, hl1', d1⟩).maxLen 2 (by decide)
  have hkm := (show Lang mkr v2 from ⟨_, _, hl2, d2⟩).words _ hkw
  have hb7 : ∀ c, z5.rest.head? = some c → isSpaceB c = true := by
    intro c hc
    exact rel_first (f := isSpaceB) (by decide +kernel) (by decide) h7 hc
  have hv2 : ∀ c, (v2 ++ z5.rest).head? = some c → isDigitB c = false := by
    intro c hc
    cases v2 with
    | nil => exact blank_noDigit (isSpace_blank (hb7 c hc))
    | cons a v2 =>
      cases hc
      have key : ∀ v ∈ [txt!"st", txt!"nd", txt!"rd", txt!"th", []], ∀ a, v.head? = some a → 97 ≤ a := by decide
      have := key _ hkm (lowerB c) rfl
      unfold lowerB at this
      unfold isDigitB
      simp only [Bool.and_eq_false_iff, decide_eq_false_iff_not]
      split at this <;> omega
  -- what stands before the number is the month and the blank
  have hsplit : X.take q ++ u2 ++ u3 ++ u4 = P ++ w ++ [b] := by
    obtain ⟨c, v1', rfl⟩ := List.exists_cons_of_ne_nil v1n
    have hdc : isDigitB c = true := digit_iff.1 (v1d c (by simp))
    have hne : u3 ++ u4 ≠ [] := by
      intro h0
      rw [(List.append_eq_nil_iff.1 h0).1] at hul
      have := month_lasts _ hul
      cases this
    obtain ⟨A, x, hA⟩ : ∃ A x, u3 ++ u4 = A ++ [x] := by
      rcases List.eq_nil_or_concat (u3 ++ u4) with h0 | ⟨A, x, h0⟩
      · exact absurd h0 hne
      · exact ⟨A, x, by simpa using h0⟩
    rcases before_digit hP (H := D) (fun c hc => .inl (hD c hc)) hR (A := X.take q ++ u2 ++ A) (x := x) (c := c) (B := v1' ++ y6.rest) (by
      rw [← e]
      refine htext.trans ?_
      rw [← r5, q1, List.append_assoc _ u3 u4, hA]
      simp) hdc with hx | hx
    · rw [← hx, List.append_assoc _ u3 u4, hA]
      simp
    · exfalso
      have : x ∈ u4 ∨ u3.getLast? = some x := by
        have hl := congrArg List.getLast? hA
        rw [List.getLast?_concat, List.getLast?_append] at hl
        cases h4 : u4.getLast? with
        | none => rw [h4] at hl; exact .inr (by simpa using hl)
        | some y =>
          rw [h4] at hl
          simp at hl
          exact .inl (hl ▸ List.mem_of_getLast? h4)
      rcases this with h0 | h0
      · have := hgap x h0
        unfold Blank at this
        unfold isDigitB at hx
        simp at hx
        omega
      · have := month_lasts _ hul
        rw [h0] at this
        simp at this
        rcases hx with hx | hx
        · rw [this.1.2] at hx; cases hx
        · exact this.2 hx
  have hDR : v1 ++ (v2 ++ z5.rest) = D ++ R := by
    have := htext
    rw [hsplit, ← r5, q1, q2] at this
    exact List.append_cancel_left (this.symm.trans e)
  obtain ⟨rfl, hR'⟩ := digits_split (fun c hc => digit_iff.1 (v1d c hc)) hD hv2 (fun c hc => hR c (List.mem_of_mem_head? hc)) hDR
  obtain ⟨u7, c7⟩ := h7.consumed
  have r7 : z5.rest = u7 ++ s7.rest := c7.rest
  have hu7 : Blanks u7 := fun c hc => isSpace_blank ((show Lang (.seq sp1 sps) u7 from ⟨_, _, h7, c7⟩).allB isSpaceB (by decide +kernel) c hc)
  have hu7n : u7 ≠ [] := by
    have : 1 ≤ u7.length := (show Lang (.seq sp1 sps) u7 from ⟨_, _, h7, c7⟩).minLen
    rintro rfl
    simp at this
  have hlow : ∀ {t : Text}, t <:+: R → toLower t = t := fun ht => lower_infix hX (ht.trans ⟨P ++ w ++ [b] ++ v1, [], by rw [e]; simp⟩)
  refine ⟨v2, u7, s7.rest, by rw [← hR', r7], ?_, hu7, hu7n, ?_⟩
  · rwa [hlow ⟨[], z5.rest, by rw [← hR']; rfl⟩] at hkm
  rcases rel_alt.1 h8 with h8 | h8
  · left
    obtain ⟨t1, k1, -⟩ := rel_seq.1 h8
    obtain ⟨u, cu⟩ := k1.consumed
    have hm := (show Lang tw u from ⟨_, _, k1, cu⟩).words _ htw
    have hur : s7.rest = u ++ t1.rest := cu.rest
    rw [hlow ⟨v2 ++ u7, t1.rest, by rw [← hR', r7, hur]; simp⟩] at hm
    simp only [List.mem_cons, List.not_mem_nil, or_false] at hm
    rcases hm with rfl | rfl
    · exact .inl ⟨_, hur.symm⟩
    · exact .inr ⟨_, hur.symm⟩
  · have := rel_eps.1 h8
    subst this
    right
    rcases rel_alt.1 h9 with h9 | h9
    · exfalso
      obtain ⟨c, hc, hd⟩ := h9.uses hyr
      rw [hR c (by rw [← hR', r7]; simp [hc])] at hd
      cases hd
    · have := rel_eps.1 h9
      subst this
      obtain ⟨z10, h10', -⟩ := rel_cap.1 h10
      obtain ⟨hwb, -⟩ := rel_wb.1 h10'
      have hp := c7.prev
      rw [List.getLast?_eq_some_getLast hu7n] at hp
      have hw1 : isWordB (u7.getLast hu7n) = false := by
        rw [← Bool.not_eq_true, ← wordChar_iff]; exact blank_notWord (hu7 _ (List.getLast_mem _))
      unfold St.atWordBoundary at hwb
      rw [hp] at hwb
      simp only [Option.some_or, Option.any_some, hw1] at hwb
      cases hr : s9.rest with
      | nil => rw [hr] at hwb; simp at hwb
      | cons c t =>
        rw [hr] at hwb
        refine ⟨c, rfl, wordChar_iff.2 ?_⟩
        simpa using hwb

/-- A text with a month and a day that no word follows. -/
structure DayAlone (X P w : Text) (b : Nat) (D mk S : Text) : Prop where
  text : X = P ++ w ++ [b] ++ (D ++ (mk ++ S))
  low : toLower X = X
  month : w ∈ monthForms
  blank : Blank b
  before : ∀ c ∈ P, isDigitB c = false
  start : ∀ c, P.getLast? = some c → ¬ WordChar c
  digits : ∀ c ∈ D, isDigitB c = true
  len : D.length = 1 ∨ D.length = 2
  mark : mk ∈ dayMarks
  next : NoWordNext S
  after : ∀ c ∈ S, isDigitB c = false
  ordinals : ∀ w m gap o d, monthWord w m = true → Gap gap → 1 ≤ d → d ≤ 31 → words o = ordinalName d → ¬ w ++ gap ++ o <:+: X

theorem da_noDigit {X P w : Text} {b : Nat} {D mk S : Text} (h : DayAlone X P w b D mk S) : (∀ c ∈ P ++ w ++ [b], isDigitB c = false) ∧ ∀ c ∈ mk ++ S, isDigitB c = false := by
  constructor
  · intro c hc
    simp only [List.mem_append, List.mem_singleton] at hc
    rcases hc with (hc | hc) | rfl
    · exact h.before c hc
    · have : ∀ w ∈ monthForms, ∀ c ∈ w, isDigitB c = false := by decide
      exact this w h.month c hc
    · exact blank_noDigit h.blank
  · intro c hc
    rcases List.mem_append.1 hc with hc | hc
    · exact (mark_letters h.mark c hc).1
    · exact h.after c hc

theorem da_middle {X P w : Text} {b : Nat} {D mk S : Text} (h : DayAlone X P w b D mk S) : Ast.middleEndian.search X = none := by
  cases hs : Ast.middleEndian.search X with
  | none => rfl
  | some mt =>
    exfalso
    obtain ⟨-, hle, ⟨s', -, -, -, hrel⟩, -⟩ := Re.search_some hs
    obtain ⟨n1, n2⟩ := da_noDigit h
    obtain ⟨mk', u, T, e, hmk, hu, hu0, hT⟩ := me_front h.low h.text h.month h.blank n1 h.digits n2 h.ordinals hrel
    -- the mark is the one written, for what follows it is no letter
    have key : ∀ {u T : Text}, S = u ++ T → Blanks u → (txt!"to" <+: T ∨ txt!"-" <+: T) ∨ (∃ c, T.head? = some c ∧ WordChar c) → False := by
      intro u T e hu hT
      rcases hT with (⟨r, rfl⟩ | ⟨r, rfl⟩) | ⟨c, hc, hw⟩
      · exact (h.next u 116 (111 :: r) hu e).1 (by unfold WordChar; omega)
      · exact (h.next u 45 r hu e).2 rfl
      · cases T with
        | nil => cases hc
        | cons a T => cases hc; exact (h.next u c T hu e).1 hw
    have hlet : ∀ v ∈ [txt!"st", txt!"nd", txt!"rd", txt!"th", []], v.length = 0 ∨ v.length = 2 := by decide
    have hlet' : ∀ v ∈ dayMarks, v.length = 0 ∨ v.length = 2 := by decide
    have hw : ∀ v ∈ [txt!"st", txt!"nd", txt!"rd", txt!"th", []], ∀ c ∈ v, isWordB c = true := by decide
    have l1 := hlet _ hmk
    have l2 := hlet' _ h.mark
    by_cases hlen : mk.length = mk'.length
    · obtain ⟨rfl, e2⟩ := List.append_inj e hlen
      exact key e2 hu hT
    · rcases l1 with l1 | l1
      · rw [List.length_eq_zero_iff] at l1
        subst l1
        obtain ⟨a, u', rfl⟩ := List.exists_cons_of_ne_nil hu0
        cases mk with
        | nil => exact hlen rfl
        | cons a' mk =>
          obtain ⟨rfl, -⟩ := List.cons.inj (show a' :: (mk ++ S) = a :: (u' ++ T) from e)
          have := (mark_letters h.mark a' (by simp)).2
          rw [blank_isSpace (hu a' (by simp))] at this
          cases this
      · have l2 : mk.length = 0 := by omega
        rw [List.length_eq_zero_iff] at l2
        subst l2
        cases mk' with
        | nil => cases l1
        | cons a m2 => exact (h.next [] a (m2 ++ (u ++ T)) (by simp [Blanks]) e).1 (wordChar_iff.2 (hw _ hmk a (by simp)))

theorem da_month {X P w : Text} {b : Nat} {D mk S : Text} (h : DayAlone X P w b D mk S) (h92 : 92 ∉ X) (hP : ∀ v ∈ monthForms, ¬ WholeWord v P)
    (hS : ∀ v ∈ monthForms, ¬ WholeWord v ([b] ++ (D ++ (mk ++ S)))) : Ast.monthName.search X = none := by
  cases hs : Ast.monthName.search X with
  | none => rfl
  | some mt =>
    exfalso
    obtain ⟨-, hle, ⟨s', -, -, -, hrel⟩, -⟩ := Re.search_some hs
    obtain ⟨n1, n2⟩ := da_noDigit h
    have hlong : ∀ v, v <:+: X → (∀ c ∈ v, isDigitB c = true) → v.length < 4 := by
      rintro v ⟨A, B, e⟩ hv
      have h1 := congrArg (fun t => (t.filter isDigitB).length) (e.trans h.text)
      simp only [List.filter_append, List.length_append] at h1
      have f0 : ∀ t : Text, (∀ c ∈ t, isDigitB c = false) → t.filter isDigitB = [] := fun t ht => List.filter_eq_nil_iff.2 fun c hc => by simp [ht c hc]
      have z1 := f0 _ n1
      have z2 := f0 _ n2
      simp only [List.filter_append, List.append_eq_nil_iff] at z1 z2
      rw [z1.1.1, z1.1.2, z1.2, z2.1, z2.2, List.filter_eq_self.2 hv, List.filter_eq_self.2 h.digits] at h1
      have := h.len
      simp at h1
      omega
    obtain ⟨A, k, x, gg, B, e, hk, hx, hgg, hA, hB, hqA, -, -, -, z, hz, hzr⟩ := month_match h.low h92 hlong hle hrel
    exact month_then_number h.text h.month h.blank h.start h.digits (by have := h.len; rintro rfl; simp at this) hP hS e hk hx hgg hA hB hz hzr

/-- A month after the day stands as a word in what is written after the day. -/
theorem da_rest {b : Nat} {D mk S v : Text} (hb : Blank b) (hD : ∀ c ∈ D, isDigitB c = true) (hD0 : D ≠ []) (hmk : mk ∈ dayMarks) (hS : ∀ c, S.head? = some c → ¬ WordChar c) (hv : v ∈ monthForms)
    (h : WholeWord v ([b] ++ (D ++ (mk ++ S)))) : WholeWord v S := by
  obtain ⟨v1, v2, -⟩ := monthForms_checks v hv
  have hvd : ∀ c ∈ v, isDigitB c = false := by
    have : ∀ w ∈ monthForms, ∀ c ∈ w, isDigitB c = false := by decide
    exact this v hv
  obtain ⟨a, e, he, ha, hb'⟩ := h
  have ha := ha rfl
  have hb' := hb' rfl
  have hword : ∀ c ∈ D ++ mk, isWordB c = true := by
    intro c hc
    rcases List.mem_append.1 hc with hc | hc
    · have hd := hD c hc
      have : c < 256 := by unfold isDigitB at hd; simp at hd; omega
      have key : ∀ d < 256, isDigitB d = true → isWordB d = true := by decide +kernel
      exact key c this hd
    · have key : ∀ mk ∈ dayMarks, ∀ c ∈ mk, isWordB c = true := by decide
      exact key mk hmk c hc
  have hne : D ++ mk ≠ [] := by simp [hD0]
  have hap : StandsApart [b] S := ⟨fun c hc => by cases hc; exact blank_notWord hb, hS⟩
  rcases word_elsewhere hne hword v1 v2 hap ha hb' (by rw [← he]; simp) with h | ⟨-, h, -⟩ | h
  · exfalso
    obtain ⟨a, e, he, -, -⟩ := h
    cases v with
    | nil => exact v1 rfl
    | cons c v =>
      have : c ∈ [b] := by rw [he]; simp
      rw [List.mem_singleton] at this
      subst this
      exact blank_notWord hb (wordChar_iff.2 (v2 c (by simp)))
  · exfalso
    obtain ⟨c, D', rfl⟩ := List.exists_cons_of_ne_nil hD0
    have := hvd c (by rw [h]; simp)
    rw [hD c (by simp)] at this
    cases this
  · exact h

/-- One number in a text is not cut by a colon. -/
theorem one_number_colons {P D R : Text} (hP : ∀ c ∈ P, isDigitB c = false) (hD : ∀ c ∈ D, isDigitB c = true) (hR : ∀ c ∈ R, isDigitB c = false) :
    ∀ c d, Digit c → Digit d → ∀ colon ∈ [txt!":", [239, 188, 154]], ¬ [c] ++ colon ++ [d] <:+: P ++ (D ++ R) := by
  rintro c d hc hd colon hcol ⟨A, B, e⟩
  have h0 : ∀ v ∈ [txt!":", [239, 188, 154]], ∃ a ∈ v.head?, isDigitB a = false := by decide
  obtain ⟨a, ha, had⟩ := h0 colon hcol
  obtain ⟨rfl, -⟩ := number_place hP hD hR (D' := [c]) (B := colon ++ [d] ++ B) (A := A) (by simp) (by intro x hx; rw [List.mem_singleton] at hx; rw [hx]; exact digit_iff.1 hc) (by
    intro x hx
    cases colon with
    | nil => cases ha
    | cons y colon => cases ha; cases hx; exact had) (by rw [← e]; simp)
  have := hR d (by simp)
  rw [digit_iff.1 hd] at this
  cases this

theorem hourText_digits (short : Bool) (d : Nat) : hourText short d ≠ [] ∧ ∀ c ∈ hourText short d, isDigitB c = true := by
  refine ⟨by cases short <;> simp [hourText, two], fun c hc => ?_⟩
  cases short <;> simp [hourText, two] at hc
  · rcases hc with rfl | rfl <;> exact dig_digit _
  · subst hc; exact dig_digit _

theorem clock_keys {keep : List Text} {text : Text} (h : FewDateWords keep text) : ∀ k ∈ clockKeys, ¬ Occurs k.atStart k.word k.atEnd (toLower text) := by
  intro k hk
  obtain ⟨w, hw', hk⟩ : ∃ w ∈ clockWords, k ∈ clockKeysOf w := by
    rcases List.mem_append.1 hk with hk | hk
    · exact ⟨_, by simp [clockWords], hk⟩
    · exact ⟨_, by simp [clockWords], hk⟩
  obtain ⟨c1, c2, c3⟩ := h.clock w hw'
  simp only [clockKeysOf, List.mem_cons, List.not_mem_nil, or_false] at hk
  rcases hk with rfl | rfl | rfl
  · exact c1
  · exact not_infix c2
  · exact not_infix c3

/-- If no parser returns anything, there is no date. -/
theorem none_prints {rt : Rt} {sort : List PResult → List PResult} (hs : Sorts sort) {ref : PTime} {text : Text} (hall : ∀ P ∈ mainParsers, ParserReturns rt ref text P []) :
    mainRun rt sort text ref = .ok txt!"[???] -- Invalid date" := by
  obtain ⟨rss, h4⟩ := forall₂_of_forall (l := mainParsers) (R := fun P rs => ParserReturns rt ref text P rs ∧ rs = []) (fun P hP => ⟨[], hall P hP, rfl⟩)
  have h0 : ∀ (ps : List Parser) rss, List.Forall₂ (fun P rs => ParserReturns rt ref text P rs ∧ rs = []) ps rss → rss.flatten = [] := by
    intro ps rss hh
    induction hh with
    | nil => rfl
    | cons h1 _ ih => simp [h1.2, ih]
  obtain ⟨g, hg⟩ := runParsers_main.2 ⟨rss, h4.imp fun _ _ h => h.1, rfl⟩
  rw [mainRun_eq hg, h0 _ _ h4]
  have : sort [] = [] := (hs []).1.eq_nil
  rw [this]
  rfl

/-- A text all of whose parsers stay silent, but the clock-time one. -/
theorem da_silent {p v : Text} {b : Nat} {short : Bool} {d : Nat} {k s : Text} (hw : toLower v ∈ monthForms) (hps : ∀ c, p.getLast? = some c → ¬ WordChar c) (hbl : Blank b)
    (hk : toLower k ∈ dayMarks) (hnext : NoWordNext s) (hp : NoDigits p) (hd : NoDigits s) (h : FewDateWords [toLower v] (p ++ v ++ [b] ++ (hourText short d ++ (k ++ s))))
    (hnp : ¬ WholeWord (toLower v) (toLower p)) (hns : ¬ WholeWord (toLower v) (toLower s)) :
    DayAlone (toLower (p ++ v ++ [b] ++ (hourText short d ++ (k ++ s)))) (toLower p) (toLower v) b (hourText short d) (toLower k) (toLower s) ∧
      ∀ P ∈ mainParsers, P = timeExprParser ∨ silent P (toLower (p ++ v ++ [b] ++ (hourText short d ++ (k ++ s)))) = true := by
  have hT : toLower (p ++ v ++ [b] ++ (hourText short d ++ (k ++ s))) = toLower p ++ toLower v ++ [b] ++ (hourText short d ++ (toLower k ++ toLower s)) := by
    have : toLower [b] = [b] := by
      unfold Blank at hbl
      show [lowerB b] = [b]
      unfold lowerB
      rw [if_neg (by omega)]
    simp only [toLower_append, toLower_hourText, this]
  generalize hX : p ++ v ++ [b] ++ (hourText short d ++ (k ++ s)) = X at *
  obtain ⟨hD0, hD⟩ := hourText_digits short d
  have hst : ∀ c, (toLower p).getLast? = some c → ¬ WordChar c := by
    intro c hc
    unfold toLower at hc
    rw [List.getLast?_map] at hc
    obtain ⟨z, hz', rfl⟩ := Option.map_eq_some_iff.1 hc
    rw [wordChar_lower]
    exact hps z hz'
  have hnl : NoWordNext (toLower s) := by
    intro g c r hg e
    obtain ⟨g', t, rfl, rfl, e2⟩ := List.map_eq_append_iff.1 (show s.map lowerB = g ++ c :: r from e)
    obtain ⟨c', r', rfl, rfl, rfl⟩ := List.map_eq_cons_iff.1 e2
    obtain ⟨h1, h2⟩ := hnext g' c' r' (by
      intro y hy
      have := hg (lowerB y) (List.mem_map_of_mem hy)
      unfold Blank lowerB at this
      unfold Blank
      split at this <;> omega) rfl
    refine ⟨by rwa [wordChar_lower], ?_⟩
    unfold lowerB
    split <;> omega
  have hda : DayAlone (toLower X) (toLower p) (toLower v) b (hourText short d) (toLower k) (toLower s) :=
    { text := hT, low := toLower_toLower X, month := hw, blank := hbl, before := lower_noDigits hp, start := hst, digits := hD
      len := by rw [hourText_length]; cases short <;> simp
      mark := hk, next := hnl, after := lower_noDigits hd, ordinals := h.dates }
  refine ⟨hda, ?_⟩
  have hap : StandsApart (toLower p) ([b] ++ (hourText short d ++ (toLower k ++ toLower s))) := ⟨hst, fun c hc => by cases hc; exact blank_notWord hbl⟩
  have hT' : toLower X = toLower p ++ toLower v ++ ([b] ++ (hourText short d ++ (toLower k ++ toLower s))) := by rw [hT]; simp
  have hsh : ∀ c, (toLower s).head? = some c → ¬ WordChar c := by
    intro c hc
    cases hs : toLower s with
    | nil => rw [hs] at hc; cases hc
    | cons y t => rw [hs] at hc; cases hc; exact (hnl [] c t (by simp [Blanks]) hs).1
  have hall := other_month hT' hap h hnp (fun hh => hns (da_rest hbl hD hD0 hk hsh hw hh))
  have e6 := da_month hda (lower_no92 h.backslash) (fun v hv hh => hall v hv (.inl hh)) (fun v hv hh => hall v hv (.inr hh))
  have e4 := da_middle hda
  obtain ⟨i1, i2, i3, i4, i5⟩ := month_others _ hw
  obtain ⟨n1, n2⟩ := da_noDigit hda
  have e9 := iso_clock n1 (fun c hc => .inl (hD c hc)) n2 hT (by
    intro c hc
    rw [List.getLast?_concat] at hc
    cases hc
    exact hbl)
  have quiet : ∀ {P : Parser} {r : Re}, P.pattern = some r → r.search (toLower X) = none → silent P (toLower X) = true := by
    intro P r hr hn
    unfold silent
    rw [hr]
    simp only [hn, Option.isNone_none]
  have hsl := no_slashes h
  intro P hPm
  simp only [mainParsers, List.mem_cons, List.not_mem_nil, or_false] at hPm
  rcases hPm with rfl | rfl | rfl | rfl | rfl | rfl | rfl | rfl | rfl | rfl | rfl | rfl
  · exact .inr (quiet casualTime_pattern (no_casualTime h i1))
  · exact .inr (quiet deadline_pattern (no_deadline_search (h.deadlines i4)))
  · exact .inr (by unfold silent; rw [dayOfWeek_pattern])
  · exact .inr (quiet casualDate_pattern (no_casualDate h i2))
  · exact .inr (quiet middleEndian_pattern e4)
  · exact .inr (quiet timeLater_pattern (hsl Ast.timeLater (by simp)))
  · exact .inr (quiet monthName_pattern e6)
  · exact .inr (quiet timeAgo_pattern (hsl Ast.timeAgo (by simp)))
  · exact .inl rfl
  · exact .inr (quiet iso_pattern e9)
  · exact .inr (quiet holiday_pattern (no_holiday h i3))
  · exact .inr (quiet week_pattern (no_week_search (h.weeks i5)))

/-- **C90 (lost).** If a text names one month, followed by one blank and a day with `st`, `nd`, `rd` or `th`, or a day from 25 on without them, and if after the day come no more words (but for
those behind a full stop, a comma or another sign that is not a hyphen) and no other date or time is in the text, then the program answers that there is no date in it. -/
theorem c90_day_with_no_word_after_it_is_lost (rt : Rt) (hrt : Rt.Defined rt) (sort : List PResult → List PResult) (hs : Sorts sort) (ref : PTime) (p v : Text) (b : Nat) (short : Bool) (d : Nat) (k s : Text)
    (hw : toLower v ∈ monthForms) (hps : ∀ c, p.getLast? = some c → ¬ WordChar c) (hbl : Blank b) (hshort : short = true → d < 10) (hd31 : d ≤ 31) (hk : toLower k ∈ dayMarks) (hlost : k ≠ [] ∨ 24 < d)
    (hnext : NoWordNext s) (hp : NoDigits p) (hd : NoDigits s) (h : FewDateWords [toLower v] (p ++ v ++ [b] ++ (hourText short d ++ (k ++ s))))
    (hnp : ¬ WholeWord (toLower v) (toLower p)) (hns : ¬ WholeWord (toLower v) (toLower s)) :
    mainRun rt sort (p ++ v ++ [b] ++ (hourText short d ++ (k ++ s))) ref = .ok txt!"[???] -- Invalid date" := by
  obtain ⟨hda, hq⟩ := da_silent hw hps hbl hk hnext hp hd h hnp hns
  have hclk := clock_keys h
  generalize hX : p ++ v ++ [b] ++ (hourText short d ++ (k ++ s)) = X at *
  obtain ⟨hD0, hD⟩ := hourText_digits short d
  obtain ⟨n1, n2⟩ := da_noDigit hda
  have hclock : ParserReturns rt ref X timeExprParser [] := by
    refine ⟨_, clock_rejects (toLower_toLower X) ?_ ?_ hclk (execute_scan hrt.stale timeExpr_pattern timeExpr_min integerWords X ref) (by intro x c hx; simp at hx)⟩
    · rw [toLower_toLower]
      rintro A D B e ⟨m0, m1, m2, m3⟩
      have e' := hda.text.symm.trans e
      obtain ⟨rfl, hPA⟩ := number_place n1 hD n2 m0 (fun c hc => digit_iff.1 (m1 c hc)) (fun c hc => not_digit_iff.1 (m3 c hc)) e'
      have key : ∀ mk ∈ dayMarks, mk = [] ∨ ∃ c ∈ mk.head?, isWordB c = true ∧ c ≠ 97 ∧ c ≠ 112 ∧ c ≠ 111 := by decide
      rcases key _ hk with hk0 | ⟨c, hc, hcw, c1, c2, c3⟩
      · have hk0 : k = [] := by unfold toLower at hk0; exact List.map_eq_nil_iff.1 hk0
        have hd24 : 24 < d := hlost.resolve_left (fun h => h hk0)
        have e2 : toLower p ++ toLower v ++ [b] ++ hourText short d = A ++ D := List.append_cancel_right (by rw [List.append_assoc _ (hourText short d)]; exact e')
        obtain ⟨t, ht⟩ : ∃ t, A = toLower p ++ toLower v ++ [b] ++ t := by
          rcases List.append_eq_append_iff.1 e2 with ⟨t, h1, -⟩ | ⟨t, h1, -⟩
          · exact ⟨t, h1⟩
          · have := congrArg List.length h1
            have h3 : (A ++ t).length = A.length + t.length := List.length_append
            have : t = [] := List.length_eq_zero_iff.1 (by omega)
            exact ⟨[], by rw [h1, this]; simp⟩
        have h2 : hourText short d = t ++ D := by
          rw [ht, List.append_assoc _ t] at e2
          exact List.append_cancel_left e2
        have ht0 : t = [] := by
          rcases List.eq_nil_or_concat t with h | ⟨t', c, rfl⟩
          · exact h
          · exfalso
            refine m2 c (by rw [ht, List.concat_eq_append, ← List.append_assoc, List.getLast?_concat]) (digit_iff.2 (hD c (by rw [h2]; simp)))
        rw [ht0, List.nil_append] at h2
        refine .inr (.inr (.inr ?_))
        have hv : valueOf D = d := by
          have h3 := stoi_short m0 (fun c hc => digit_iff.1 (m1 c hc)) (by rw [← h2, hourText_length]; cases short <;> decide)
          rw [← h2, stoi_hourText (by cases short <;> simp <;> (try have := hshort rfl) <;> omega)] at h3
          have := Out.ok.inj h3
          rw [← h2]
          omega
        rw [hv]
        exact ⟨hd24, .inl (by omega)⟩
      · refine .inr (.inr (.inl ⟨c, ?_, wordChar_iff.2 hcw, c1, c2, c3⟩))
        cases hkk : toLower k with
        | nil => rw [hkk] at hc; cases hc
        | cons y t => rw [hkk] at hc; exact hc
    · rw [toLower_toLower, hda.text]
      exact one_number_colons n1 hD n2
  have hall : ∀ P ∈ mainParsers, ParserReturns rt ref X P [] := by
    intro P hPm
    rcases hq P hPm with rfl | hq
    · exact hclock
    · exact silent_returns hq
  exact none_prints hs hall

/-- **C90 (misread).** A day up to 23 without `st`, `nd`, `rd` or `th` is then taken for an hour: the program prints that hour of the day of the reference time. -/
theorem c90_bare_day_with_no_word_after_it_is_read_as_an_hour (rt : Rt) (hrt : Rt.Defined rt) (sort : List PResult → List PResult) (hs : Sorts sort) (ref : PTime) (x : DateTime) (hx : RefReads ref x)
    (p v : Text) (b : Nat) (short : Bool) (d : Nat) (s : Text) (hw : toLower v ∈ monthForms) (hps : ∀ c, p.getLast? = some c → ¬ WordChar c) (hbl : Blank b) (hshort : short = true → d < 10) (hd23 : d < 24)
    (hnext : NoWordNext s) (hp : NoDigits p) (hd : NoDigits s) (hb : ∀ c ∈ s, c < 256) (h : FewDateWords [toLower v] (p ++ v ++ [b] ++ (hourText short d ++ s)))
    (hnp : ¬ WholeWord (toLower v) (toLower p)) (hns : ¬ WholeWord (toLower v) (toLower s)) (hz : ¬ OnlyAZone s) (hlen : (p ++ v ++ [b] ++ (hourText short d ++ s)).length < 4294967296) :
    mainRun rt sort (p ++ v ++ [b] ++ (hourText short d ++ s)) ref = .ok (foundLine ++ (DateTime.mk x.year x.month x.day d 0 0).format) := by
  obtain ⟨hda, hq⟩ := da_silent (k := []) hw hps hbl (by decide) hnext hp hd h hnp hns
  obtain ⟨hD0, hD⟩ := hourText_digits short d
  rw [List.nil_append] at hq
  have hclk := clock_keys h
  have ht : p ++ v ++ [b] ++ (hourText short d ++ s) = (p ++ v ++ [b]) ++ hourText short d ++ s := by simp
  rw [ht] at hq hclk hlen ⊢
  have hvd : NoDigits v := by
    have key : ∀ w ∈ monthForms, ∀ c ∈ w, isDigitB c = false := by decide
    intro c hc
    refine not_digit_iff.2 ?_
    have := key _ hw (lowerB c) (List.mem_map_of_mem hc)
    unfold lowerB at this
    split at this
    · unfold isDigitB; simp; omega
    · exact this
  have hpd : NoDigits (p ++ v ++ [b]) := by
    intro c hc
    simp only [List.mem_append, List.mem_singleton] at hc
    rcases hc with (hc | hc) | rfl
    · exact hp c hc
    · exact hvd c hc
    · exact not_digit_iff.2 (blank_noDigit hbl)
  refine (clock_prints_in hrt hs hx (D := hourText short d) (t := .none) (sfx := []) (ap := none) (h := d) (mi := 0) (H := (d : Int)) (by rw [toLower_hourText]; simp [Tail.text]) hD0 hD
    (by rw [hourText_length]; cases short <;> decide) (hourOf_text (by cases short <;> simp <;> (try have := hshort rfl) <;> omega)) ?_ hd23 (by simp) (by decide) (by decide) (.inl ⟨rfl, rfl, ?_⟩)
    (fun c hc => ?_) (fun c hc => ?_) hpd hd hb hclk hq hz hlen).trans rfl
  · unfold minuteOf
    simp only [tailMinutes, List.isEmpty_nil, Bool.not_true, Bool.false_eq_true, if_false]
    rw [if_neg (by omega)]; rfl
  · rintro ⟨g, w, r, hg, e, -, hwd⟩
    have key : ∀ w ∈ [txt!"a", txt!"p", txt!"am", txt!"pm", txt!"a.m", txt!"p.m", txt!"a.m.", txt!"p.m."], ∃ c t, w = c :: t ∧ WordChar c := by
      have k0 : ∀ w ∈ [txt!"a", txt!"p", txt!"am", txt!"pm", txt!"a.m", txt!"p.m", txt!"a.m.", txt!"p.m."], w.head?.any isWordB = true := by decide
      intro w hw
      have := k0 w hw
      cases w with
      | nil => cases this
      | cons c t => exact ⟨c, t, rfl, wordChar_iff.2 this⟩
    obtain ⟨c, t, rfl, hc⟩ : ∃ c t, w = c :: t ∧ WordChar c := by
      rcases hwd with h | ⟨y, rfl, -⟩
      · exact key w h
      · exact ⟨111, y ++ txt!"clock", rfl, by unfold WordChar; omega⟩
    exact (hda.next g c (t ++ r) hg (by rw [e]; simp)).1 hc
  · rw [List.getLast?_concat] at hc
    cases hc
    exact hbl
  · cases s with
    | nil => cases hc
    | cons y t => cases hc; exact (hnext [] c t (by simp [Blanks]) rfl).1

/-! ## The conditions are met, and needed -/

/-- What is checked of a text with a month, a day and no word after it. -/
def dayAloneChecks (p v : Text) (short : Bool) (d : Nat) (k s : Text) : Bool :=
  !p.getLast?.any isWordB && !(s.dropWhile isSpaceB).head?.any (fun c => isWordB c || c == 45) && (p ++ s).all (fun c => !isDigitB c) && s.all (fun c => decide (c < 256)) &&
    ((dateWordChecks (p ++ v ++ [32] ++ (hourText short d ++ (k ++ s))) [toLower v]).drop 1).all id && !occursB true (toLower v) true (toLower p) &&
    !occursB true (toLower v) true (toLower s) && !zoneB s

theorem noWordNext_of {s : Text} (h : (s.dropWhile isSpaceB).head?.any (fun c => isWordB c || c == 45) = false) : NoWordNext s := by
  intro g c r hg e
  by_cases hc : isSpaceB c = true
  · have hb := isSpace_blank hc
    exact ⟨blank_notWord hb, by unfold Blank at hb; omega⟩
  · have : s.dropWhile isSpaceB = c :: r := by
      rw [e]
      rw [List.dropWhile_append_of_pos (fun x hx => blank_isSpace (hg x hx)), List.dropWhile_cons_of_neg hc]
    rw [this] at h
    simp at h
    exact ⟨by rw [wordChar_iff]; simp [h.1], h.2⟩

theorem dayAloneChecks_sound {p v : Text} {short : Bool} {d : Nat} {k s : Text} (h : dayAloneChecks p v short d k s = true) :
    (∀ c, p.getLast? = some c → ¬ WordChar c) ∧ NoWordNext s ∧ NoDigits p ∧ NoDigits s ∧ (∀ c ∈ s, c < 256) ∧ FewDateWords [toLower v] (p ++ v ++ [32] ++ (hourText short d ++ (k ++ s))) ∧
      ¬ WholeWord (toLower v) (toLower p) ∧ ¬ WholeWord (toLower v) (toLower s) ∧ ¬ OnlyAZone s := by
  unfold dayAloneChecks at h
  simp only [Bool.and_eq_true, Bool.not_eq_true', List.all_eq_true, decide_eq_true_eq] at h
  obtain ⟨⟨⟨⟨⟨⟨⟨a1, a2⟩, a3⟩, a4⟩, a5⟩, a6⟩, a7⟩, a8⟩ := h
  refine ⟨fun c hc => ?_, noWordNext_of a2, fun c hc => ?_, fun c hc => ?_, a4, fewDateWords_of (List.all_eq_true.2 a5), occursB_sound a6, occursB_sound a7, zoneB_sound a8⟩
  · rw [hc] at a1; rw [wordChar_iff]; simpa using a1
  · exact not_digit_iff.2 (a3 c (by simp [hc]))
  · exact not_digit_iff.2 (a3 c (by simp [hc]))

def dayAloneSamples : List (Text × Text × Bool × Nat × Text × Text) :=
  [(txt!"", txt!"March", true, 5, txt!"th", txt!""), (txt!"We met on ", txt!"March", true, 5, txt!"th", txt!"."), (txt!"We met on ", txt!"DEC", false, 31, txt!"ST", txt!" , I think, and (so it was)"),
    (txt!"", txt!"march", true, 5, txt!"", txt!""), (txt!"We met on ", txt!"Sept", false, 7, txt!"", txt!", in Rome."), (txt!"We met on ", txt!"Oct", false, 28, txt!"", txt!"!"),
    (txt!"(until ", txt!"may", false, 23, txt!"", txt!"  )  and after")]

/-- The conditions are met by ordinary sentences. -/
theorem c90_conditions_are_met : ∀ x ∈ dayAloneSamples, match x with
    | (p, v, short, d, k, s) =>
      toLower v ∈ monthForms ∧ (∀ c, p.getLast? = some c → ¬ WordChar c) ∧ (short = true → d < 10) ∧ d ≤ 31 ∧ toLower k ∈ dayMarks ∧ ((k ≠ [] ∨ 24 < d) ∨ (k = [] ∧ d < 24)) ∧ NoWordNext s ∧ NoDigits p ∧ NoDigits s ∧
        (∀ c ∈ s, c < 256) ∧ FewDateWords [toLower v] (p ++ v ++ [32] ++ (hourText short d ++ (k ++ s))) ∧ ¬ WholeWord (toLower v) (toLower p) ∧ ¬ WholeWord (toLower v) (toLower s) ∧ ¬ OnlyAZone s := by
  have hck : ∀ x ∈ dayAloneSamples, match x with
      | (p, v, short, d, k, s) => toLower v ∈ monthForms ∧ (short = true → d < 10) ∧ d ≤ 31 ∧ toLower k ∈ dayMarks ∧ ((k ≠ [] ∨ 24 < d) ∨ (k = [] ∧ d < 24)) ∧ dayAloneChecks p v short d k s = true := by
    decide +kernel
  rintro ⟨p, v, short, d, k, s⟩ hx
  obtain ⟨h1, h2, h3, h4, h5, h6⟩ := hck _ hx
  obtain ⟨a1, a2, a3, a4, a5, a6, a7, a8, a9⟩ := dayAloneChecks_sound h6
  exact ⟨h1, a1, h2, h3, h4, h5, a2, a3, a4, a5, a6, a7, a8, a9⟩

/-- **C90: the conditions are needed.** With a word after the day, with a hyphen, with two numbers, with am or a time zone after it, something else is printed. -/
theorem c90_conditions_are_needed : (∀ s ∈ [txt!"march 5th was cold", txt!"march 5th - seventh was cold", txt!"march 5th, at 7"], mainRun (Rt.usual 0) sortKeep s exampleRef ≠ .ok invalidLine) ∧
    ∀ s ∈ [txt!"march 5 was cold", txt!"march 5 pm", txt!"march 5 (EST)", txt!"march 5:30", txt!"march 24"], mainRun (Rt.usual 0) sortKeep s exampleRef ≠ .ok (foundLine ++ (DateTime.mk 2019 3 15 5 0 0).format) := by
  decide +kernel

end Chrono.Props
