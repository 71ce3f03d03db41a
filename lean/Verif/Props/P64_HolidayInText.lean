import Verif.Props.P63_WeekInText
/-!
# C84: holidays in the middle of a sentence
-/
namespace Chrono

/-! ## The ways through a pattern -/

theorem Fits.split {l l' : List (Option Nat)} {u : Text} (h : Fits (l ++ l') u) : ∃ a b, u = a ++ b ∧ Fits l a ∧ Fits l' b := by
  induction l generalizing u with
  | nil => exact ⟨[], u, rfl, .nil, h⟩
  | cons o l ih =>
    cases h with
    | ch h => obtain ⟨a, b, rfl, h1, h2⟩ := ih h; exact ⟨_, b, rfl, .ch h1, h2⟩
    | gap hg hg0 h => obtain ⟨a, b, rfl, h1, h2⟩ := ih h; exact ⟨_, b, by simp, .gap hg hg0 h1, h2⟩

theorem Fits.letters {w u : Text} (h : Fits (w.map some) u) : toLower u = w := by
  induction w generalizing u with
  | nil => cases h; rfl
  | cons c w ih =>
    cases h with
    | ch h => simp [toLower, ← ih h]

theorem Fits.infix {k u : Text} {l : List (Option Nat)} (h : Fits l u) (hk : k.map some <:+: l) : k <:+: toLower u := by
  obtain ⟨a, b, rfl⟩ := hk
  obtain ⟨x, y, rfl, hx, -⟩ := h.split
  obtain ⟨x1, x2, rfl, -, h2⟩ := hx.split
  exact ⟨toLower x1, toLower y, by simp [toLower, ← h2.letters]⟩

end Chrono

namespace Chrono.Props
open Chrono Chrono.Spec Chrono.Boost

def spaceOne : Re := .one (.set true false [.cls .space false])

theorem spaces_rel {g : Text} (hg : Blanks g) (h0 : g ≠ []) {z : St} {v : Text} (hz : z.rest = g ++ v) :
    ∃ z', Rel (.seq spaceOne (.star true spaceOne)) z z' ∧ z'.rest = v ∧ z'.prev = g.getLast? := by
  have ht : ∀ c ∈ g, (Single.set true false [.cls .space false]).test c = true := by
    intro c hc
    have := hg c hc
    simp only [Single.test, List.any_cons, List.any_nil, Item.test, ClassK.test, isSpaceB, Bool.or_false, Bool.and_eq_true, decide_eq_true_eq]
    unfold Blank at this
    rcases this with rfl | ⟨h1, h2⟩
    · simp
    · refine ⟨by omega, ?_⟩
      simp [h1, h2]
  cases g with
  | nil => exact absurd rfl h0
  | cons c g =>
    have r1 : Rel spaceOne z (z.adv c (g ++ v)) := .one hz (ht c (by simp))
    have r2 : Rel (.star true spaceOne) (z.adv c (g ++ v)) ((z.adv c (g ++ v)).advs g v) := rel_star_one.2 ⟨g, v, rfl, fun x hx => ht x (by simp [hx]), rfl⟩
    refine ⟨_, .seq r1 r2, rfl, ?_⟩
    cases g with
    | nil => rfl
    | cons d g => simp [St.advs, List.getLast?_cons]

set_option maxRecDepth 8000 in
theorem holiday_parts : ∃ M C B D, Ast.holiday = .seq (.cap 1 (.wb false)) (.seq (.cap 2 (.alt (.alt M C) B)) (.seq (.seq spaceOne (.star true spaceOne)) (.seq (.alt D .eps) (.cap 3 (.wb false))))) ∧
    (Re.alt (.alt M C) B).free = true ∧ ((Re.alt (.alt M C) B).groups = [] ∧ D.groups = []) ∧
    (∃ L, M.lex = some L ∧ ∀ l ∈ L, (∃ w ∈ holidayWords, l = w.map some) ∨ ∃ k ∈ [txt!"year's", txt!"luther", [92]], k.map some <:+: l) ∧
    C.needs 92 = true ∧ (∃ L, B.lex = some L ∧ ∀ l ∈ L, l = txt!"blackfriday".map some ∨ l = txt!"black".map some ++ none :: txt!"friday".map some) ∧
    D.words = some [txt!"day"] ∧
    (∀ w ∈ holidayWords, ((Re.alt (.alt M C) B).fullMatch w).isSome = true) :=
  ⟨_, _, _, _, rfl, by decide +kernel, ⟨rfl, rfl⟩, ⟨_, rfl, by decide +kernel⟩, by decide +kernel,
    ⟨_, rfl, by decide +kernel⟩, by decide +kernel, by decide +kernel⟩

/-- No name of a holiday that consists of several words. -/
structure NoLongHoliday (t : Text) : Prop where
  backslash : 92 ∉ t
  newYear : ¬ txt!"year's" <:+: t
  luther : ¬ txt!"luther" <:+: t
  blackFriday : ¬ BeginsAWord txt!"black" t ∨ ¬ EndsAWord txt!"friday" t

theorem holidayWords_head : ∀ w ∈ holidayWords, w.head?.any isWordB = true := by decide
theorem holidayWords_last : ∀ w ∈ holidayWords, w.getLast?.any isWordB = true := by decide

/-- What the holiday pattern finds, in lower case. -/
theorem holiday_reads {T : Text} (hT : toLower T = T) (hno : NoLongHoliday T) {mt : Match} (h : Ast.holiday.search T = some mt) :
    ∃ n g d, mt.str 0 = n ++ g ++ d ∧ n ∈ holidayWords ∧ Blanks g ∧ g ≠ [] ∧ d ∈ [txt!"day", []] ∧ Open (T.take mt.start) ∧ (d = [] ∨ Ends (T.drop mt.stop)) := by
  obtain ⟨M, C, B, D, he, -, ⟨z1, z2⟩, ⟨L, hL, hM⟩, hC, ⟨LB, hLB, hB⟩, hD, -⟩ := holiday_parts
  obtain ⟨hpl, s', hrel, hprev, hrest⟩ := search_place h
  have ok := Re.search_ok h
  have hlow : toLower (mt.str 0) = mt.str 0 := lower_of_infix (t := T) (by rw [hT]; exact str_infix h 0)
  have hst : (T.take mt.start).length = mt.start := by
    have := (Re.search_some h).2.1
    rw [List.length_take]; omega
  rw [he] at hrel
  obtain ⟨s1, h1, hrel⟩ := rel_seq.1 hrel
  obtain ⟨s2, h2, hrel⟩ := rel_seq.1 hrel
  obtain ⟨s3, h3, hrel⟩ := rel_seq.1 hrel
  obtain ⟨s4, h4, h5⟩ := rel_seq.1 hrel
  obtain ⟨s0, h0, e1⟩ := rel_cap.1 h1
  obtain ⟨hb0, rfl⟩ := rel_wb.1 h0
  obtain ⟨n, c2⟩ := h2.consumed
  obtain ⟨g, c3⟩ := h3.consumed
  obtain ⟨d, c4⟩ := h4.consumed
  obtain ⟨s5, h5', e5⟩ := rel_cap.1 h5
  obtain ⟨hb5, rfl⟩ := rel_wb.1 h5'
  have hm0 : mt.str 0 = n ++ g ++ d := by
    have r1 : (startSt T mt.start).rest = n ++ (g ++ (d ++ s'.rest)) := by
      have : s'.rest = s5.rest := by rw [e5]
      rw [this, ← c4.rest, ← c3.rest, ← c2.rest, e1]
    have r2 : (startSt T mt.start).rest = mt.str 0 ++ s'.rest := by
      show T.drop mt.start = _
      rw [hrest]
      conv_lhs => rw [hpl]
      rw [List.append_assoc, List.drop_append, hst]
      simp
    have := r2.symm.trans r1
    simp only [← List.append_assoc] at this ⊢
    exact List.append_cancel_right this
  have ln := lang_cap ⟨_, _, h2, c2⟩
  have lg : Lang (.seq spaceOne (.star true spaceOne)) g := ⟨_, _, h3, c3⟩
  have ld : Lang (.alt D .eps) d := ⟨_, _, h4, c4⟩
  have bg : Blanks g := blanks_of lg (by decide +kernel)
  have ng : g ≠ [] := by
    rintro rfl
    have := lg.minLen
    simp [Re.minLen, spaceOne] at this
  rw [hm0] at hlow hpl
  have nl : toLower n = n ∧ toLower d = d := by
    simp only [toLower, List.map_append] at hlow
    obtain ⟨q, q3⟩ := List.append_inj hlow (by simp)
    obtain ⟨q1, -⟩ := List.append_inj q (by simp)
    exact ⟨q1, q3⟩
  have hopen : ∀ c, n.head? = some c → WordChar c → Open (T.take mt.start) := by
    intro c hc hw
    refine open_of_boundary hpl (c := c) ?_ ?_ hw
    · rw [hst]; simpa using hb0
    · rw [List.append_assoc, List.head?_append, hc]; rfl
  have hinf : n <:+: T := by
    rw [hpl]
    exact ⟨T.take mt.start, g ++ d ++ T.drop mt.stop, by simp⟩
  have mn : n ∈ holidayWords := by
    rcases lang_alt ln with ln | ln
    · rcases lang_alt ln with ln | ln
      · obtain ⟨l, hl, hf⟩ := ln.lex hL
        rcases hM l hl with ⟨w, hw, rfl⟩ | ⟨k, hk, hki⟩
        · rw [← nl.1, hf.letters]; exact hw
        · exfalso
          have := hf.infix hki
          rw [nl.1] at this
          have := this.trans hinf
          simp only [List.mem_cons, List.not_mem_nil, or_false] at hk
          rcases hk with rfl | rfl | rfl
          · exact hno.newYear this
          · exact hno.luther this
          · exact hno.backslash (this.subset (by simp))
      · exact absurd (hinf.subset (ln.needs 92 hC)) hno.backslash
    · exfalso
      obtain ⟨l, hl, hf⟩ := ln.lex hLB
      obtain ⟨x, rfl⟩ : ∃ x, n = txt!"black" ++ x ++ txt!"friday" := by
        rcases hB l hl with rfl | rfl
        · exact ⟨[], by rw [← nl.1, hf.letters]; rfl⟩
        · obtain ⟨a, b, rfl, ha, hb⟩ := hf.split
          cases hb with
          | @gap x _ y hx hx0 hy =>
            have e := nl.1
            simp only [toLower, List.map_append] at e
            obtain ⟨q1, e⟩ := List.append_inj e (by simp)
            obtain ⟨-, q2⟩ := List.append_inj e (by simp)
            have q1' : toLower a = a := q1
            have q2' : toLower y = y := q2
            exact ⟨x, by rw [← q1', ha.letters, ← q2', hy.letters]; simp⟩
      have hop := hopen 98 rfl (.inr (.inl (by decide)))
      rcases hno.blackFriday with k | k
      · exact k ⟨T.take mt.start, x ++ txt!"friday" ++ g ++ d ++ T.drop mt.stop, by
          conv_lhs => rw [hpl]
          simp, fun _ => hop, by simp⟩
      · exact k ⟨T.take mt.start ++ txt!"black" ++ x, g ++ d ++ T.drop mt.stop, by
          conv_lhs => rw [hpl]
          simp, by simp, fun _ => by rw [List.append_assoc]; exact Ends.blanks bg ng⟩
  have md : d = txt!"day" ∨ d = [] := by
    rcases lang_alt ld with k | k
    · have := k.words _ hD
      rw [nl.2] at this
      exact .inl (by simpa using this)
    · obtain ⟨s, s', hr, hc⟩ := k
      cases hr
      exact .inr (List.eq_nil_of_length_eq_zero (by have := hc.pos; omega))
  refine ⟨n, g, d, hm0, mn, bg, ng, by simpa using md, ?_, ?_⟩
  · have := holidayWords_head n mn
    cases n with
    | nil => cases this
    | cons c n => exact hopen c rfl (wordChar_iff.2 (by simpa using this))
  · rcases md with rfl | rfl
    · right
      rw [← hrest]
      have hb : s'.atWordBoundary = true := by
        rw [e5]
        have : s5.atWordBoundary = true := by simpa using hb5
        exact this
      refine ends_of_boundary hb (c := 121) ?_ (.inr (.inl (by decide)))
      rw [e5]
      exact c4.prev
    · exact .inl rfl

/-- The name, blanks and another word: the holiday is found where it stands. -/
theorem holiday_matches {P S w g y : Text} {c : Nat} (hP : Open P) (hw : w ∈ holidayWords) (hg : Blanks g) (hg0 : g ≠ []) (hc : WordChar c) (hS : S = g ++ c :: y) :
    ∃ s', Rel Ast.holiday (startSt (P ++ w ++ S) P.length) s' := by
  obtain ⟨M, C, B, D, he, hf, -, -, -, -, -, hm⟩ := holiday_parts
  have hrest : (startSt (P ++ w ++ S) P.length).rest = w ++ (g ++ c :: y) := by
    show (P ++ w ++ S).drop P.length = _
    rw [List.append_assoc, List.drop_left, hS]
  have hb : (startSt (P ++ w ++ S) P.length).atWordBoundary = true := by
    have := holidayWords_head w hw
    cases w with
    | nil => cases this
    | cons x w =>
      refine boundary_start hrest (by simpa using this) ?_
      show ∀ x', ((P ++ (x :: w) ++ S).take P.length).getLast? = some x' → _
      rw [List.append_assoc, List.take_left]; exact hP
  generalize startSt (P ++ w ++ S) P.length = z at hrest hb
  have cap : ∀ {r : Re} {k : Nat} {z z' : St}, Rel r z z' → ∃ z'', Rel (.cap k r) z z'' ∧ z''.rest = z'.rest ∧ z''.prev = z'.prev :=
    fun h => ⟨_, .cap h, rfl, rfl⟩
  obtain ⟨z0, r0, e0, p0⟩ := cap (k := 1) (Rel.wb (neg := false) (s := z) (by rw [hb]; rfl))
  obtain ⟨z1, r1, c1, e1⟩ := (lang_of_fullMatch (hm w hw)).rel hf (z := z0) (by rw [e0, hrest])
  obtain ⟨z1', r1', e1', p1⟩ := cap (k := 2) r1
  obtain ⟨z2, r2, e2, p2⟩ := spaces_rel hg hg0 (z := z1') (by rw [e1', e1])
  have hend : z2.atWordBoundary = true := by
    refine boundary_start e2 (wordChar_iff.1 hc) ?_
    rw [p2]
    intro x hx
    exact notWord_of_blank (hg x (List.mem_of_getLast? hx))
  obtain ⟨z3, r3, -, -⟩ := cap (k := 3) (Rel.wb (neg := false) (s := z2) (by rw [hend]; rfl))
  rw [he]
  exact ⟨_, .seq r0 (.seq r1' (.seq r2 (.seq (.altR (.eps _)) r3)))⟩

/-- A name of a holiday that begins before another one ends before it. -/
theorem name_before {x n w S R : Text} (hx : x ≠ []) (ho : Open x) (hn : n ∈ holidayWords) (hw : w ∈ holidayWords) (e : x ++ (w ++ S) = n ++ R) :
    ∃ x', x = n ++ x' ∧ R = x' ++ (w ++ S) ∧ x' ≠ [] := by
  have hcase : ∀ n ∈ holidayWords, n = txt!"president's" ∨ n ≠ [] ∧ n.all isWordB = true := by decide
  rcases hcase n hn with rfl | ⟨h1, h2⟩
  · have e' : x ++ (w ++ S) = txt!"president" ++ (txt!"'s" ++ R) := e
    obtain ⟨x', h1, h2, h3⟩ := peel_word hx ho ⟨by decide, by decide⟩ e'
    have ho' := open_tail ho h1
    cases x' with
    | nil => exact absurd rfl h3
    | cons a x' =>
      simp only [List.cons_append, List.nil_append, List.cons.injEq] at h2
      obtain ⟨rfl, h2⟩ := h2
      cases x' with
      | nil =>
        exfalso
        have hs : ∀ w ∈ holidayWords, w ≠ [] ∧ w.head? ≠ some 115 := by decide
        obtain ⟨q1, q2⟩ := hs w hw
        cases w with
        | nil => exact q1 rfl
        | cons b w => simp at h2 q2; exact q2 h2.1.symm
      | cons b x' =>
        simp only [List.cons_append, List.cons.injEq] at h2
        obtain ⟨rfl, h2⟩ := h2
        refine ⟨x', by rw [h1]; rfl, h2, ?_⟩
        rintro rfl
        exact ho' 115 rfl (.inr (.inl (by decide)))
  · exact peel_word hx ho ⟨h1, by simpa using h2⟩ e

/-- The word stands in the whole, if it stands in the end that begins with no word or between two words. -/
theorem occurs_end {a e : Bool} {k x s : Text} (hk : k.head?.any isWordB = true) (hxs : Open x ∨ Ends s) (h : Occurs a k e s) : Occurs a k e (x ++ s) := by
  rcases hxs with hx | hs
  · have := occurs_mid (p := x) (s := []) ⟨hx, by simp⟩ h
    simpa using this
  · exact occurs_drop x hk hs h

theorem noLong_end {x s : Text} (hxs : Open x ∨ Ends s) (h : NoLongHoliday (x ++ s)) : NoLongHoliday s := by
  have hi : s <:+: x ++ s := (List.suffix_append x s).isInfix
  refine ⟨fun hb => h.backslash (hi.subset hb), fun k => h.newYear (k.trans hi), fun k => h.luther (k.trans hi), ?_⟩
  exact h.blackFriday.imp (fun k ho => k (occurs_end (by decide) hxs ho)) (fun k ho => k (occurs_end (by decide) hxs ho))

/-- The holiday pattern finds the name, and nothing else. -/
theorem holiday_place {text P S w g y : Text} {c : Nat} (hw : w ∈ holidayWords) (hT : toLower text = P ++ w ++ S) (hps : StandsApart P S)
    (hg : Blanks g) (hg0 : g ≠ []) (hc : WordChar c) (hS : S = g ++ c :: y) (hno : NoLongHoliday (toLower text))
    (hone : ∀ w' ∈ holidayWords, w' ≠ w → ¬ WholeWord w' (toLower text)) (hP : ¬ WholeWord w P) (hwS : ¬ WholeWord w S) :
    ∃ mt, Ast.holiday.search (toLower text) = some mt ∧ (∃ g d, mt.str 0 = w ++ g ++ d ∧ Blanks g ∧ d ∈ [txt!"day", []]) ∧ Ast.holiday.search ((toLower text).drop mt.stop) = none := by
  obtain ⟨s', hrel⟩ := holiday_matches hps.1 hw hg hg0 hc hS
  rw [← hT] at hrel
  obtain ⟨mt, hm, hle⟩ := search_before (by rw [hT]; simp only [List.length_append]; omega) hrel
  obtain ⟨n, g', d, h0, hn, hg', hg0', hd, ho, hend⟩ := holiday_reads (toLower_toLower text) hno hm
  obtain ⟨hpl, -⟩ := search_place hm
  have hst : ((toLower text).take mt.start).length ≤ P.length := by rw [List.length_take]; omega
  generalize hA : (toLower text).take mt.start = A at hpl hst ho
  generalize hR : (toLower text).drop mt.stop = R at hpl hend
  have hs : P ++ (w ++ S) = A ++ (n ++ (g' ++ d ++ R)) := by
    rw [← List.append_assoc, ← hT, hpl, h0]; simp
  obtain ⟨x, hx⟩ : ∃ x, P = A ++ x := by
    rcases List.append_eq_append_iff.1 hs with ⟨x, k1, -⟩ | ⟨x, k1, -⟩
    · have : x = [] := by
        have := congrArg List.length k1
        simp only [List.length_append] at this
        exact List.eq_nil_of_length_eq_zero (by omega)
      subst this
      exact ⟨[], by simpa using k1.symm⟩
    · exact ⟨x, k1⟩
  have hs2 : x ++ (w ++ S) = n ++ (g' ++ d ++ R) := by
    rw [hx, List.append_assoc] at hs
    exact List.append_cancel_left hs
  have hEnd : Ends (g' ++ d ++ R) := by rw [List.append_assoc]; exact Ends.blanks hg' hg0'
  have hwhole : WholeWord n (toLower text) := ⟨A, g' ++ d ++ R, by rw [hT, List.append_assoc, hs]; simp, fun _ => ho, fun _ => hEnd⟩
  obtain rfl : n = w := by
    by_contra hne
    exact hone n hn hne hwhole
  by_cases hx0 : x = []
  · subst hx0
    rw [List.nil_append] at hs2
    have hSR : S = g' ++ d ++ R := List.append_cancel_left hs2
    refine ⟨mt, hm, ⟨g', d, h0, hg', hd⟩, ?_⟩
    cases hs3 : Ast.holiday.search ((toLower text).drop mt.stop) with
    | none => rfl
    | some mt' =>
      exfalso
      rw [hR] at hs3
      have hxs : Open (g' ++ d) ∨ Ends R := by
        rcases hend with rfl | h
        · left
          intro c hc
          rw [List.append_nil] at hc
          exact notWord_of_blank (hg' c (List.mem_of_getLast? hc))
        · exact .inr h
      have hnoS : NoLongHoliday S := noLong_end (x := P ++ n) (.inr hps.2) (by rw [← hT]; exact hno)
      have hnoR : NoLongHoliday R := noLong_end hxs (by rw [← hSR]; exact hnoS)
      have hlow : toLower R = R := lower_of_infix (t := text) (by rw [← hR]; exact (List.drop_suffix _ _).isInfix)
      obtain ⟨n', g2, d2, k0, kn, kg, kg0, -, ko, -⟩ := holiday_reads hlow hnoR hs3
      obtain ⟨kpl, -⟩ := search_place hs3
      have hwR : WholeWord n' R := by
        refine ⟨R.take mt'.start, g2 ++ d2 ++ R.drop mt'.stop, ?_, fun _ => ko, fun _ => by rw [List.append_assoc]; exact Ends.blanks kg kg0⟩
        conv_lhs => rw [kpl, k0]
        simp
      have hwS' : WholeWord n' S := by rw [hSR]; exact occurs_end (holidayWords_head n' kn) hxs hwR
      by_cases hne : n' = n
      · exact hwS (hne ▸ hwS')
      · exact hone n' kn hne (by rw [hT]; exact occurs_end (holidayWords_head n' kn) (.inr hps.2) hwS')
  · exfalso
    obtain ⟨x', k1, k2, k3⟩ := name_before hx0 (open_tail hps.1 hx) hn hw hs2
    refine hP ⟨A, x', by rw [hx, k1, List.append_assoc], fun _ => ho, fun _ c hc => ?_⟩
    exact hEnd c (by rw [k2, List.head?_append, hc]; rfl)

/-! ## What is read -/

/-- The words the holiday parser looks for. -/
def holidayTests : List Text :=
  [txt!"independence", txt!"new year", txt!"veteran", txt!"christmas", txt!"mlk", txt!"martin luther king", txt!"labor", txt!"president", txt!"thanksgiving",
    txt!"black", txt!"memorial", txt!"columbus"]

theorem holiday_tests : ∀ w ∈ holidayWords, ∀ k ∈ holidayTests, k <+: w ∨ ∃ c ∈ k, c ∉ w ∧ c ∉ txt!"day" ∧ c ≠ 32 ∧ 14 ≤ c := by decide

theorem contains_prefix {k w : Text} (h : k <+: w) (x : Text) : contains k (w ++ x) = true := by
  obtain ⟨b, rfl⟩ := h
  rw [List.append_assoc]
  exact contains_append k (b ++ x)

/-- What is looked for in the mention depends on the name only. -/
theorem holiday_same {w : Text} (hw : w ∈ holidayWords) {g d : Text} (hg : Blanks g) (hd : d ∈ [txt!"day", []]) :
    ∀ k ∈ holidayTests, contains k (w ++ g ++ d) = contains k (w ++ txt!" day") := by
  intro k hk
  rcases holiday_tests w hw k hk with h | ⟨c, h1, h2, h3, h4, h5⟩
  · rw [List.append_assoc, contains_prefix h, contains_prefix h]
  · rw [contains_notMem h1, contains_notMem h1]
    · simp only [List.mem_append, not_or]
      refine ⟨h2, fun hc => ?_⟩
      simp at hc h3
      omega
    · simp only [List.mem_append, not_or]
      refine ⟨⟨h2, fun hc => ?_⟩, fun hc => ?_⟩
      · have := hg c hc
        unfold Blank at this
        omega
      · simp only [List.mem_cons, List.not_mem_nil, or_false] at hd
        rcases hd with rfl | rfl
        · exact h3 hc
        · cases hc

theorem holidayDate_same {w : Text} (hw : w ∈ holidayWords) {g d : Text} (hg : Blanks g) (hd : d ∈ [txt!"day", []]) (r : PResult) (ref : PTime) :
    holidayDate r (w ++ g ++ d) ref = holidayDate r (w ++ txt!" day") ref := by
  have h := holiday_same hw hg hd
  have ny : contains txt!"new year" (w ++ txt!" day") = false ∧ contains txt!"christmas" (w ++ txt!" day") = false := by
    have hn : ∀ w ∈ holidayWords, contains txt!"new year" (w ++ txt!" day") = false ∧ contains txt!"christmas" (w ++ txt!" day") = false := by decide
    exact hn w hw
  unfold holidayDate
  simp only [h _ (by simp [holidayTests] : txt!"independence" ∈ holidayTests), h _ (by simp [holidayTests] : txt!"new year" ∈ holidayTests),
    h _ (by simp [holidayTests] : txt!"veteran" ∈ holidayTests), h _ (by simp [holidayTests] : txt!"christmas" ∈ holidayTests), h _ (by simp [holidayTests] : txt!"mlk" ∈ holidayTests),
    h _ (by simp [holidayTests] : txt!"martin luther king" ∈ holidayTests), h _ (by simp [holidayTests] : txt!"labor" ∈ holidayTests),
    h _ (by simp [holidayTests] : txt!"president" ∈ holidayTests), h _ (by simp [holidayTests] : txt!"thanksgiving" ∈ holidayTests), h _ (by simp [holidayTests] : txt!"black" ∈ holidayTests),
    h _ (by simp [holidayTests] : txt!"memorial" ∈ holidayTests), h _ (by simp [holidayTests] : txt!"columbus" ∈ holidayTests), ny.1, ny.2, Bool.false_eq_true, if_false]

theorem setDay_placed (i : Nat) (t : Text) (r : PResult) (d : Date) (k : Int) : setDay (placed i t r) d k = (setDay r d k >>= fun x => .ok (placed i t x)) := by
  unfold setDay
  cases d.year <;> try rfl
  cases d.month <;> try rfl
  cases d.day <;> try rfl
  cases d.dayOfWeek <;> rfl

theorem ite_bind {b : Prop} [Decidable b] {A B A' B' : Out PResult} {f : PResult → Out PResult} (h1 : A' = (A >>= f)) (h2 : B' = (B >>= f)) :
    (if b then A' else B') = ((if b then A else B) >>= f) := by
  split <;> assumption

theorem ite_holds {b : Prop} [Decidable b] {A B : Out PResult} {x : PResult} {Q : Prop} (h : (if b then A else B) = .ok x) (h1 : A = .ok x → Q) (h2 : B = .ok x → Q) : Q := by
  split at h
  · exact h1 h
  · exact h2 h

theorem holidayDate_placed (i : Nat) (t : Text) (r : PResult) (text : Text) (ref : PTime) :
    holidayDate (placed i t r) text ref = (holidayDate r text ref >>= fun x => .ok (placed i t x)) := by
  have step : ∀ (o : Out Date) (k : Int), (o >>= fun d => setDay (placed i t r) d k) = ((o >>= fun d => setDay r d k) >>= fun x => .ok (placed i t x)) := by
    intro o k
    cases o with
    | ok d => exact setDay_placed i t r d k
    | _ => rfl
  unfold holidayDate
  cases ref.date.year with
  | ok y =>
    rw [Out.bind_ok, Out.bind_ok]
    refine ite_bind rfl (ite_bind (ite_bind rfl rfl) (ite_bind rfl (ite_bind (ite_bind rfl rfl) (ite_bind (step _ _) (ite_bind (step _ _) (ite_bind (step _ _)
      (ite_bind (step _ _) (ite_bind ?_ (ite_bind (step _ _) (ite_bind (step _ _) rfl))))))))))
    cases nthKday 4 4 11 y with
    | ok d => exact step _ _
    | _ => rfl
  | _ => rfl

theorem plain_setDay {r x : PResult} {d : Date} {k : Int} (h : setDay r d k = .ok x) (hr : Plain r) : Plain x := by
  unfold setDay at h
  obtain ⟨_, -, h⟩ := Out.bind_eq_ok.1 h
  obtain ⟨_, -, h⟩ := Out.bind_eq_ok.1 h
  obtain ⟨_, -, h⟩ := Out.bind_eq_ok.1 h
  obtain ⟨_, -, h⟩ := Out.bind_eq_ok.1 h
  cases h
  exact hr

theorem plain_holidayDate {r x : PResult} {t : Text} {ref : PTime} (h : holidayDate r t ref = .ok x) (hr : Plain r) : Plain x := by
  have step : ∀ {o : Out Date} {k : Int}, (o >>= fun d => setDay r d k) = .ok x → Plain x := by
    intro o k h
    obtain ⟨d, -, h⟩ := Out.bind_eq_ok.1 h
    exact plain_setDay h hr
  have fx : ∀ {y m d : Int}, (pure (setFixed r y m d) : Out PResult) = .ok x → Plain x := by
    intro y m d h
    cases h
    exact hr
  unfold holidayDate at h
  obtain ⟨y, -, h⟩ := Out.bind_eq_ok.1 h
  refine ite_holds h fx fun h => ite_holds h (fun h => ite_holds h fx fx) fun h => ite_holds h fx fun h => ite_holds h (fun h => ite_holds h fx fx) fun h =>
    ite_holds h step fun h => ite_holds h step fun h => ite_holds h step fun h => ite_holds h step fun h => ite_holds h ?_ fun h => ite_holds h step fun h =>
    ite_holds h step fun h => ?_
  · intro h
    obtain ⟨d, -, h⟩ := Out.bind_eq_ok.1 h
    exact step h
  · cases h
    exact hr

/-- What is read from the name of a holiday. -/
def holidayRead (ref : PTime) (w : Text) : Out PResult := do
  let result ← holidayDate (PResult.mk' ref 0 []) (w ++ txt!" day") ref
  return (result.onStart (fun c => (c.set .hour 0).set .min 0)).setTag .usHolidays

theorem holiday_extract {rt : Rt} {gl : Globals} {tx : Text} {mt : Match} {ref : PTime} {idx : Nat} {w g d : Text} (hw : w ∈ holidayWords) (hg : Blanks g) (hd : d ∈ [txt!"day", []])
    (h0 : mt.str 0 = w ++ g ++ d) :
    holidayExtract rt gl tx mt ref idx = (holidayRead ref w >>= fun x => .ok (placed (PResult.toU32 idx) (mt.str 0) x)) := by
  unfold holidayExtract holidayRead
  simp only
  have e2 : PResult.mk' ref idx (mt.str 0) = placed (PResult.toU32 idx) (mt.str 0) (PResult.mk' ref 0 []) := rfl
  have e3 := holidayDate_same hw hg hd (placed (PResult.toU32 idx) (mt.str 0) (PResult.mk' ref 0 [])) ref
  rw [← h0] at e3
  rw [e2, e3, holidayDate_placed]
  cases holidayDate (PResult.mk' ref 0 []) (w ++ txt!" day") ref with
  | ok r =>
    simp only [Out.bind_ok, Out.pure_eq]
    rw [← setTag_placed]
    rfl
  | _ => rfl

theorem holiday_notMonth : ∀ w ∈ holidayWords, ∀ x ∈ monthForms, x ∉ [w] := by decide

theorem holiday_others : ∀ w ∈ holidayWords, (∀ x ∈ partsOfDay, x ∉ [w]) ∧ (∀ x ∈ nearDays, x ∉ [w]) ∧ txt!"in" ∉ [w] ∧ txt!"week" ∉ [w] := by decide

theorem noLong_of {ex : List Text} {text : Text} (h : FewDateWords ex text) : NoLongHoliday (toLower text) := by
  refine ⟨fun hb => h.backslash ?_, h.newYear, h.luther, h.blackFriday⟩
  unfold toLower at hb
  obtain ⟨c, hc, hl⟩ := List.mem_map.1 hb
  unfold lowerB at hl
  split at hl
  · omega
  · subst hl; exact hc

theorem holiday_run {rt : Rt} (hrt : rt.Benign) {sort : List PResult → List PResult} (hs : Sorts sort) {text P S w g y : Text} {c : Nat} (hw : w ∈ holidayWords)
    (hT : toLower text = P ++ w ++ S) (hps : StandsApart P S) (hg : Blanks g) (hg0 : g ≠ []) (hc : WordChar c) (hS : S = g ++ c :: y)
    (h : NoDateWordsBut [w] text) (hP : ¬ WholeWord w P) (hwS : ¬ WholeWord w S) (ref : PTime) : mainRun rt sort text ref = (holidayRead ref w >>= answer) := by
  have hf := h.toFewDateWords
  obtain ⟨mt, hm, ⟨g', d, h0, hg', hd⟩, hno⟩ := holiday_place hw hT hps hg hg0 hc hS (noLong_of hf) (fun w' hw' hne => hf.holidays w' hw' (by simpa using hne)) hP hwS
  obtain ⟨i1, i2, i3, i4⟩ := holiday_others w hw
  have ho : othersSilent 10 (toLower text) = true := by
    have a := no_numbers h
    have b := no_slashes hf
    unfold othersSilent
    simp [List.range_succ, mainPatterns, no_casualTime hf i1, no_casualDate hf i2, no_deadline_search (hf.deadlines i3), no_week_search (hf.weeks i4),
      a Ast.middleEndian (by simp), no_months h (holiday_notMonth w hw), a Ast.timeExpr (by simp), a Ast.iso (by simp), b Ast.timeLater (by simp), b Ast.timeAgo (by simp)]
  have hx := holiday_extract (rt := rt) (gl := integerWords) (tx := toLower text) (ref := ref) (idx := mt.start) hw hg' hd h0
  rw [only_run hrt hs 10 rfl holiday_pattern holiday_min rfl ho hm hno, hx]
  · cases holidayRead ref w with
    | ok c => exact answer_placed _ _ _
    | _ => rfl
  · intro res hr
    rw [hx] at hr
    obtain ⟨c, hc, hr⟩ := Out.bind_eq_ok.1 hr
    cases hr
    unfold holidayRead at hc
    obtain ⟨d, hd, hc⟩ := Out.bind_eq_ok.1 hc
    cases hc
    have hp := plain_holidayDate hd (plain_mk _ _ _)
    have hp2 : Plain (d.onStart (fun c => (c.set .hour 0).set .min 0)) := hp
    exact plain_setTag (by decide) hp2

theorem holidayDay_checks : ∀ w ∈ holidayWords, (dateWordChecks (w ++ txt!" day") [w]).all id && !occursB true w true txt!" day" && (toLower (w ++ txt!" day") == w ++ txt!" day") && !w.isEmpty = true := by
  decide +kernel

theorem goesOn_lower {s : Text} (h : GoesOnWithAWord s) : GoesOnWithAWord (toLower s) := by
  obtain ⟨g, c, b, hg, hg0, hc, rfl⟩ := h
  refine ⟨g, lowerB c, toLower b, hg, hg0, (wordChar_lower c).2 hc, ?_⟩
  have e : g.map lowerB = g := by
    conv_rhs => rw [← List.map_id g]
    refine List.map_congr_left fun x hx => ?_
    have := hg x hx
    unfold Blank at this
    unfold lowerB
    rw [if_neg (by omega)]
    rfl
  simp [toLower, e]

/-- **C84 (holidays).** If the only words for a time in a text are the name of a holiday, upper or lower case, followed by another word (`day`, `dinner`), then
the program does with the text what it does with `… day` alone: the words around the name are ignored. -/
theorem c84_holiday_in_a_sentence (rt : Rt) (hrt : rt.Benign) (sort : List PResult → List PResult) (hs : Sorts sort) (p v s w : Text) (hw : w ∈ holidayWords)
    (hv : toLower v = w) (hps : StandsApart p s) (hgo : GoesOnWithAWord s) (h : NoDateWordsBut [w] (p ++ v ++ s)) (hp : ¬ WholeWord w (toLower p)) (hns : ¬ WholeWord w (toLower s))
    (ref : PTime) : mainRun rt sort (p ++ v ++ s) ref = mainRun rt sort (w ++ txt!" day") ref := by
  have hT : toLower (p ++ v ++ s) = toLower p ++ w ++ toLower s := by rw [← hv]; simp [toLower]
  have ha := holidayDay_checks w hw
  simp only [Bool.and_eq_true, Bool.not_eq_true', beq_iff_eq] at ha
  obtain ⟨⟨⟨a1, a2⟩, a3⟩, a4⟩ := ha
  have hne : w ≠ [] := by rintro rfl; cases a4
  obtain ⟨g, c, b, hg, hg0, hc, e⟩ := goesOn_lower hgo
  rw [holiday_run hrt hs hw hT (standsApart_lower hps) hg hg0 hc e h hp hns,
    holiday_run hrt hs (P := []) (S := txt!" day") hw (by rw [a3]; rfl) ⟨by simp, by
      intro c hc
      cases hc
      exact notWord_of_blank (.inl rfl)⟩ blank_gap.1 blank_gap.2 (c := 100) (y := txt!"ay") (.inr (.inl (by decide))) rfl (dateWordChecks_sound a1) (not_in_nil hne) (occursB_sound a2)]

/-! ## Witnesses -/

theorem apart_of {p s : Text} (h : (!(p.getLast?.any isWordB) && !(s.head?.any isWordB)) = true) : StandsApart p s := by
  simp only [Bool.and_eq_true, Bool.not_eq_true'] at h
  refine ⟨fun c hc => ?_, fun c hc => ?_⟩
  · have := h.1; rw [hc] at this; rw [wordChar_iff]; simpa using this
  · have := h.2; rw [hc] at this; rw [wordChar_iff]; simpa using this

/-- **C84: the conditions on a deadline are met** by ordinary sentences. -/
theorem c84_deadline_conditions_are_met : ∀ x ∈ [(txt!"Please come back in Rome's best bus ", txt!"In Two Weeks", txt!", my friend!", (txt!"in", txt!"two", txt!"weeks")),
      (txt!"The second day we will know more, ", txt!"WITHIN half an hour", txt!"", (txt!"within", txt!"half an", txt!"hour"))],
    x.2.2.2.1 ∈ deadlineWords ∧ x.2.2.2.2.1 ∈ writtenNumbers ∧ x.2.2.2.2.2 ∈ deadlineUnits ∧ toLower x.2.1 = deadlineText x.2.2.2.1 x.2.2.2.2.1 x.2.2.2.2.2 ∧ StandsApart x.1 x.2.2.1 ∧
      NoDateWordsBut [txt!"in"] (x.1 ++ x.2.1 ++ x.2.2.1) ∧ NoDeadline (toLower x.1) ∧ NoDeadline (toLower x.2.2.1) := by
  have h : ∀ x ∈ [(txt!"Please come back in Rome's best bus ", txt!"In Two Weeks", txt!", my friend!", (txt!"in", txt!"two", txt!"weeks")),
      (txt!"The second day we will know more, ", txt!"WITHIN half an hour", txt!"", (txt!"within", txt!"half an", txt!"hour"))],
    x.2.2.2.1 ∈ deadlineWords ∧ x.2.2.2.2.1 ∈ writtenNumbers ∧ x.2.2.2.2.2 ∈ deadlineUnits ∧ toLower x.2.1 = deadlineText x.2.2.2.1 x.2.2.2.2.1 x.2.2.2.2.2 ∧
      (!(x.1.getLast?.any isWordB) && !(x.2.2.1.head?.any isWordB)) = true ∧ (dateWordChecks (x.1 ++ x.2.1 ++ x.2.2.1) [txt!"in"]).all id = true ∧
      noDeadlineB (toLower x.1) = true ∧ noDeadlineB (toLower x.2.2.1) = true := by decide +kernel
  intro x hx
  obtain ⟨h1, h2, h3, h4, h5, h6, h7, h8⟩ := h x hx
  exact ⟨h1, h2, h3, h4, apart_of h5, dateWordChecks_sound h6, noDeadlineB_sound h7, noDeadlineB_sound h8⟩

/-- The text does not end with one of the words and blanks. -/
def endsWithB (ws : List Text) (t : Text) : Bool := ws.any fun w => w.reverse.isPrefixOf (t.reverse.dropWhile isSpaceB)

theorem endsWithB_sound {ws : List Text} {t : Text} (hws : ∀ w ∈ ws, w.getLast?.any isWordB = true) (h : endsWithB ws t = false) : ¬ EndsWithOneOf ws t := by
  rintro ⟨a, w, hw, g, hg, rfl⟩
  have h1 := hws w hw
  unfold endsWithB at h
  rw [List.any_eq_false] at h
  refine h w hw ?_
  have e : ((a ++ w ++ g).reverse.dropWhile isSpaceB) = w.reverse ++ a.reverse := by
    have hd : ∀ (l : Text) (r : Text), (∀ c ∈ l, isSpaceB c = true) → (∀ c, r.head? = some c → isSpaceB c = false) → (l ++ r).dropWhile isSpaceB = r := by
      intro l r hl hr
      induction l with
      | nil =>
        cases r with
        | nil => rfl
        | cons c r => simp [hr c rfl]
      | cons c l ih =>
        simp only [List.cons_append, List.dropWhile, hl c (by simp)]
        exact ih fun x hx => hl x (by simp [hx])
    rw [List.reverse_append, List.reverse_append]
    refine hd _ _ (fun c hc => ?_) (fun c hc => ?_)
    · exact blank_isSpace (hg c (by simpa using hc))
    · cases hl : w.getLast? with
      | none => rw [hl] at h1; cases h1
      | some y =>
        rw [hl] at h1
        rw [List.head?_append, List.head?_reverse, hl] at hc
        cases hc
        cases hsp : isSpaceB c with
        | false => rfl
        | true => exact absurd (wordChar_iff.2 (by simpa using h1)) (notWord_of_blank (isSpaceB_blank hsp))
  rw [e]
  simp [List.isPrefixOf_iff_prefix]

/-- The text begins with blanks and the word. -/
def beginsWithB (w t : Text) : Bool := w.isPrefixOf (t.dropWhile isSpaceB)

theorem beginsWithB_sound {w t : Text} (hw : w.head?.any isWordB = true) (h : beginsWithB w t = false) : ¬ BeginsWithWord w t := by
  rintro ⟨g, b, hg, rfl⟩
  have : (g ++ w ++ b).dropWhile isSpaceB = w ++ b := by
    clear h
    induction g with
    | nil =>
      cases w with
      | nil => cases hw
      | cons c w =>
        cases hsp : isSpaceB c with
        | false => simp [hsp]
        | true => exact absurd (wordChar_iff.2 (by simpa using hw)) (notWord_of_blank (isSpaceB_blank hsp))
    | cons c g ih =>
      simp only [List.cons_append, List.dropWhile, blank_isSpace (hg c (by simp))]
      exact ih fun x hx => hg x (by simp [hx])
  unfold beginsWithB at h
  rw [this, List.isPrefixOf_iff_prefix.2 (List.prefix_append w b)] at h
  cases h

/-- **C84: the conditions on a week are met** by ordinary sentences. -/
theorem c84_week_conditions_are_met : ∀ x ∈ [(txt!"At last, the next one of us leaves ", txt!"Next Week", txt!" (or another week)"),
      (txt!"We worked a lot ", txt!"LAST three weeks", txt!"; what a week!")],
    toLower x.2.1 ∈ weekPhrases ∧ StandsApart x.1 x.2.2 ∧ NoDateWordsBut [txt!"week"] (x.1 ++ x.2.1 ++ x.2.2) ∧ NoWeek (toLower x.1) ∧ NoWeek (toLower x.2.2) ∧
      ¬ EndsWithOneOf lastNext (toLower x.1) ∧ ¬ BeginsWithWord txt!"week" (toLower x.2.2) := by
  have h : ∀ x ∈ [(txt!"At last, the next one of us leaves ", txt!"Next Week", txt!" (or another week)"),
      (txt!"We worked a lot ", txt!"LAST three weeks", txt!"; what a week!")],
    toLower x.2.1 ∈ weekPhrases ∧ (!(x.1.getLast?.any isWordB) && !(x.2.2.head?.any isWordB)) = true ∧ (dateWordChecks (x.1 ++ x.2.1 ++ x.2.2) [txt!"week"]).all id = true ∧
      noWeekB (toLower x.1) = true ∧ noWeekB (toLower x.2.2) = true ∧ endsWithB lastNext (toLower x.1) = false ∧ beginsWithB txt!"week" (toLower x.2.2) = false := by decide +kernel
  intro x hx
  obtain ⟨h1, h2, h3, h4, h5, h6, h7⟩ := h x hx
  exact ⟨h1, apart_of h2, dateWordChecks_sound h3, noWeekB_sound h4, noWeekB_sound h5, endsWithB_sound (by decide) h6, beginsWithB_sound (by decide) h7⟩

/-- **C84: the conditions on a holiday are met** by ordinary sentences. -/
theorem c84_holiday_conditions_are_met : ∀ x ∈ [(txt!"Is the bank open on ", txt!"President's", txt!" Day?", txt!"president's"), (txt!"We eat turkey for ", txt!"Thanksgiving", txt!"  dinner, in peace", txt!"thanksgiving")],
    x.2.2.2 ∈ holidayWords ∧ toLower x.2.1 = x.2.2.2 ∧ StandsApart x.1 x.2.2.1 ∧ GoesOnWithAWord x.2.2.1 ∧ NoDateWordsBut [x.2.2.2] (x.1 ++ x.2.1 ++ x.2.2.1) ∧
      ¬ WholeWord x.2.2.2 (toLower x.1) ∧ ¬ WholeWord x.2.2.2 (toLower x.2.2.1) := by
  have h : ∀ x ∈ [(txt!"Is the bank open on ", txt!"President's", txt!" Day?", txt!"president's"), (txt!"We eat turkey for ", txt!"Thanksgiving", txt!"  dinner, in peace", txt!"thanksgiving")],
    x.2.2.2 ∈ holidayWords ∧ toLower x.2.1 = x.2.2.2 ∧ (!(x.1.getLast?.any isWordB) && !(x.2.2.1.head?.any isWordB)) = true ∧
      (dateWordChecks (x.1 ++ x.2.1 ++ x.2.2.1) [x.2.2.2]).all id = true ∧
      occursB true x.2.2.2 true (toLower x.1) = false ∧ occursB true x.2.2.2 true (toLower x.2.2.1) = false := by decide +kernel
  have hg : ∀ x ∈ [txt!" Day?", txt!"  dinner, in peace"], GoesOnWithAWord x := by
    intro x hx
    simp only [List.mem_cons, List.not_mem_nil, or_false] at hx
    rcases hx with rfl | rfl
    · exact ⟨txt!" ", 68, txt!"ay?", blank_gap.1, by decide, .inl (by decide), rfl⟩
    · exact ⟨txt!"  ", 100, txt!"inner, in peace", by intro c hc; simp at hc; exact .inl hc, by decide, .inr (.inl (by decide)), rfl⟩
  intro x hx
  obtain ⟨h1, h2, h3, h4, h5, h6⟩ := h x hx
  refine ⟨h1, h2, apart_of h3, hg _ ?_, dateWordChecks_sound h4, occursB_sound h5, occursB_sound h6⟩
  simp only [List.mem_cons, List.not_mem_nil, or_false] at hx
  rcases hx with rfl | rfl <;> simp

/-- **C84: the conditions are needed.** A second phrase, `last` before the phrase, `weeks` after it, or a holiday with no word after it change the answer. -/
theorem c84_conditions_are_needed : ∀ x ∈ [(txt!"in one day or in two days", txt!"in two days"), (txt!"last next week", txt!"next week"),
      (txt!"next week weeks", txt!"next week"), (txt!"at thanksgiving.", txt!"thanksgiving day")],
    mainRun (Rt.usual 0) sortKeep x.1 exampleRef ≠ mainRun (Rt.usual 0) sortKeep x.2 exampleRef := by
  have h : ([(txt!"in one day or in two days", txt!"in two days"), (txt!"last next week", txt!"next week"),
      (txt!"next week weeks", txt!"next week"), (txt!"at thanksgiving.", txt!"thanksgiving day")].all fun x =>
    mainRun (Rt.usual 0) sortKeep x.1 exampleRef != mainRun (Rt.usual 0) sortKeep x.2 exampleRef) = true := by decide +kernel
  intro x hx
  simpa using List.all_eq_true.1 h x hx

end Chrono.Props
